import Verif.Daejeon.Number

/-!
# Tables of Daejeon16: coup3hj

The `data` statements of `contrib/Daejeon16/Daejeon16_public_v2.f90`, line by line; a line of the source is a row here.
-/

namespace Verif.Daejeon

/-- `Daejeon16_public_v2.f90` 820-835. -/
def coup3hj_1 : List (List Num) := [
  [-5.144109E-02, -4.100734E-02, -1.494653E-02, 8.703193E-04, 2.753191E-03, 1.612840E-04, -5.893102E-04, -1.844974E-05, 1.519729E-04, -1.707360E-05, -4.080304E-05, 1.488364E-05, 9.303109E-06, -8.362120E-06, -4.033451E-07, 3.856370E-06, -1.949596E-06, -9.764711E-07, 2.189251E-06, -1.281535E-06, -6.880610E-07, 2.072802E-06, -1.710121E-06, -1.589230E-07, 1.995789E-06, -2.217346E-06, 5.668555E-07, 1.621610E-06, 0.000000E+00, 0.000000E+00, 0.000000E+00, 1.604523E-01, 8.358862E-02, 4.215134E-03, -1.418411E-02, -2.550851E-03, 3.131985E-03, 5.490814E-04, -8.696339E-04, -3.037207E-05, 2.592661E-04, -5.188257E-05, -6.889208E-05, 4.018831E-05, 9.818584E-06, -1.992259E-05, 5.517454E-06, 6.945661E-06, -8.306185E-06, 1.914998E-06, 5.499942E-06, -8.243553E-06, 4.163808E-06, 3.850953E-06, -9.507339E-06, 7.907249E-06, 1.736409E-07, -8.492359E-06, 0.000000E+00, 0.000000E+00, 0.000000E+00, 0.000000E+00],
  [-4.100734E-02, -6.507353E-02, -4.447927E-02, -1.000509E-02, 5.675632E-03, 3.103827E-03, -1.160017E-03, -7.756295E-04, 3.999564E-04, 1.685998E-04, -1.611564E-04, -1.401256E-05, 5.884625E-05, -1.453736E-05, -1.612665E-05, 1.177904E-05, 1.779441E-06, -6.667716E-06, 3.543253E-06, 1.241688E-06, -4.234492E-06, 4.628224E-06, -2.257270E-06, -2.121993E-06, 5.986790E-06, -6.222168E-06, 1.855807E-06, 4.447684E-06, 0.000000E+00, 0.000000E+00, 0.000000E+00, 7.712334E-02, 1.373557E-01, 5.852949E-02, -1.591862E-02, -1.784263E-02, 3.127485E-03, 5.067515E-03, -1.350935E-03, -1.375170E-03, 7.063909E-04, 2.782464E-04, -3.206643E-04, 9.074283E-06, 1.114020E-04, -4.696407E-05, -2.409972E-05, 3.211019E-05, -7.274173E-06, -1.207585E-05, 1.636706E-05, -1.139000E-05, 1.463393E-06, 1.121417E-05, -2.067529E-05, 1.827612E-05, -1.367310E-06, -2.061406E-05, 0.000000E+00, 0.000000E+00, 0.000000E+00, 0.000000E+00],
  [-1.494653E-02, -4.447927E-02, -5.575429E-02, -3.050117E-02, -4.970349E-04, 7.052254E-03, 7.489576E-04, -1.966726E-03, -8.631386E-06, 6.375283E-04, -1.445826E-04, -1.875861E-04, 1.119633E-04, 3.288888E-05, -5.645110E-05, 9.168780E-06, 2.053536E-05, -1.416592E-05, -2.172416E-06, 8.201926E-06, -4.547813E-06, 2.262617E-07, 7.509038E-07, -8.901383E-07, 2.926283E-06, -5.327781E-06, 4.152554E-06, 1.829529E-06, 0.000000E+00, 0.000000E+00, 0.000000E+00, 1.213793E-02, 5.966047E-02, 8.305468E-02, 1.924879E-02, -2.450312E-02, -9.064110E-03, 8.347425E-03, 2.447255E-03, -3.283132E-03, -1.856231E-04, 1.238700E-03, -3.121016E-04, -3.597891E-04, 2.603405E-04, 3.371227E-05, -1.220812E-04, 4.408158E-05, 3.106506E-05, -3.491392E-05, 2.953806E-06, 1.392380E-05, -4.707671E-06, -8.064830E-06, 3.815139E-06, 1.287783E-05, -1.969619E-05, 2.482233E-06, 0.000000E+00, 0.000000E+00, 0.000000E+00, 0.000000E+00],
  [8.703193E-04, -1.000509E-02, -3.050117E-02, -3.509420E-02, -1.490082E-02, 3.752528E-03, 4.409372E-03, -1.085146E-03, -1.194257E-03, 6.370466E-04, 2.606235E-04, -3.359880E-04, 1.472670E-05, 1.352419E-04, -6.329650E-05, -3.124029E-05, 4.383910E-05, -6.883063E-06, -1.905201E-05, 1.439389E-05, 3.622213E-06, -1.260613E-05, 6.115842E-06, 5.988434E-06, -1.053257E-05, 3.681071E-06, 6.933476E-06, -1.058465E-05, 0.000000E+00, 0.000000E+00, 0.000000E+00, -7.197672E-03, -3.959785E-03, 2.400888E-02, 3.635529E-02, -4.020479E-04, -1.717130E-02, 1.423195E-04, 7.046339E-03, -1.225767E-03, -2.543227E-03, 1.218214E-03, 6.180158E-04, -7.317336E-04, 5.261974E-05, 2.848545E-04, -1.633099E-04, -4.440093E-05, 1.051233E-04, -3.874216E-05, -4.026003E-05, 5.728372E-05, -1.345018E-05, -4.065183E-05, 5.349220E-05, -1.363666E-05, -4.256754E-05, 6.290433E-05, 0.000000E+00, 0.000000E+00, 0.000000E+00, 0.000000E+00],
  [2.753191E-03, 5.675632E-03, -4.970349E-04, -1.490082E-02, -1.889694E-02, -6.768222E-03, 3.286712E-03, 2.055230E-03, -1.073266E-03, -3.302887E-04, 5.020989E-04, -8.981331E-05, -1.829378E-04, 1.286436E-04, 2.309029E-05, -7.254428E-05, 2.805399E-05, 2.013399E-05, -2.827057E-05, 8.511710E-06, 1.229982E-05, -1.801452E-05, 7.471797E-06, 9.042859E-06, -1.758018E-05, 1.101944E-05, 5.123201E-06, -1.746914E-05, 0.000000E+00, 0.000000E+00, 0.000000E+00, -3.683731E-03, -1.321701E-02, -1.541113E-02, 3.522810E-03, 1.551269E-02, -2.469372E-03, -8.557641E-03, 2.570717E-03, 3.487446E-03, -2.124848E-03, -8.608316E-04, 1.254160E-03, -1.443642E-04, -4.811785E-04, 3.014612E-04, 4.921500E-05, -1.626380E-04, 8.330915E-05, 1.547107E-05, -5.628908E-05, 4.844177E-05, -1.493031E-05, -2.734738E-05, 5.411598E-05, -4.010243E-05, -1.325285E-05, 6.711482E-05, 0.000000E+00, 0.000000E+00, 0.000000E+00, 0.000000E+00],
  [1.612840E-04, 3.103827E-03, 7.052254E-03, 3.752528E-03, -6.768222E-03, -1.061078E-02, -3.371950E-03, 2.428443E-03, 1.105412E-03, -7.275123E-04, -8.770624E-05, 2.535843E-04, -1.188822E-04, -4.341158E-05, 8.784797E-05, -2.903643E-05, -2.674389E-05, 2.873382E-05, -4.818458E-06, -8.705091E-06, 7.309097E-06, -3.012387E-06, 1.094807E-06, 1.258459E-06, -4.841857E-06, 5.771418E-06, -1.621058E-06, -4.586936E-06, 0.000000E+00, 0.000000E+00, 0.000000E+00, 8.392632E-04, -1.358638E-03, -9.412744E-03, -1.286735E-02, -3.519748E-04, 8.698403E-03, -1.592479E-03, -4.526095E-03, 2.187285E-03, 1.531394E-03, -1.634618E-03, -4.118526E-05, 7.779367E-04, -3.583177E-04, -1.723633E-04, 2.542272E-04, -5.919708E-05, -8.204346E-05, 6.750029E-05, 6.167583E-06, -3.315205E-05, 2.937697E-06, 2.818040E-05, -1.718717E-05, -2.303248E-05, 4.563356E-05, -2.154874E-05, 0.000000E+00, 0.000000E+00, 0.000000E+00, 0.000000E+00],
  [-5.893102E-04, -1.160017E-03, 7.489576E-04, 4.409372E-03, 3.286712E-03, -3.371950E-03, -5.954049E-03, -1.420103E-03, 1.802105E-03, 5.252853E-04, -5.427132E-04, 7.410762E-07, 1.405780E-04, -8.870825E-05, 5.319911E-06, 4.612376E-05, -3.597585E-05, -3.922642E-06, 2.398439E-05, -1.249488E-05, -7.468165E-06, 1.345754E-05, -4.306137E-06, -6.689862E-06, 9.203244E-06, -3.900897E-06, -2.919716E-06, 7.222214E-06, 0.000000E+00, 0.000000E+00, 0.000000E+00, 8.836065E-04, 3.093957E-03, 3.393165E-03, -2.317510E-03, -6.923382E-03, -5.354310E-04, 4.926939E-03, -1.232483E-03, -2.447215E-03, 1.646198E-03, 5.861432E-04, -1.096324E-03, 2.498823E-04, 3.965479E-04, -3.423321E-04, 1.594892E-05, 1.561222E-04, -1.165676E-04, 5.206168E-06, 6.330753E-05, -6.122026E-05, 1.378303E-05, 3.730538E-05, -5.503921E-05, 2.601084E-05, 2.826206E-05, -6.403336E-05, 0.000000E+00, 0.000000E+00, 0.000000E+00, 0.000000E+00],
  [-1.844974E-05, -7.756295E-04, -1.966726E-03, -1.085146E-03, 2.055230E-03, 2.428443E-03, -1.420103E-03, -3.159293E-03, -5.139700E-04, 1.174128E-03, 1.875978E-04, -3.666823E-04, 3.867368E-05, 7.479037E-05, -5.372107E-05, 1.662393E-05, 1.301349E-05, -2.171389E-05, 1.045800E-05, 3.902783E-06, -9.512082E-06, 6.308310E-06, 1.882490E-07, -4.294461E-06, 3.631815E-06, -8.726764E-07, 2.577198E-07, -1.451231E-06, 0.000000E+00, 0.000000E+00, 0.000000E+00, -1.816802E-04, 4.273943E-04, 2.798505E-03, 4.298856E-03, 5.737530E-04, -3.845698E-03, -7.077609E-04, 2.825122E-03, -7.909103E-04, -1.311425E-03, 1.103501E-03, 1.543135E-04, -6.618713E-04, 2.839682E-04, 1.669153E-04, -2.342687E-04, 5.920051E-05, 7.245089E-05, -6.626493E-05, 3.302951E-06, 2.362900E-05, -3.397694E-06, -1.806872E-05, 7.248224E-06, 2.296770E-05, -3.527944E-05, 1.101501E-05, 0.000000E+00, 0.000000E+00, 0.000000E+00, 0.000000E+00],
  [1.519729E-04, 3.999564E-04, -8.631386E-06, -1.194257E-03, -1.073266E-03, 1.105412E-03, 1.802105E-03, -5.139700E-04, -1.718228E-03, -1.652834E-04, 7.297575E-04, 3.176690E-05, -2.366016E-04, 5.106397E-05, 4.077765E-05, -3.594119E-05, 1.520632E-05, 4.970155E-06, -1.483562E-05, 8.333726E-06, 3.341811E-06, -7.444982E-06, 3.958065E-06, 8.463557E-07, -4.386366E-06, 6.348998E-06, -3.843304E-06, -4.965161E-06, 0.000000E+00, 0.000000E+00, 0.000000E+00, -2.232245E-04, -8.787650E-04, -1.164358E-03, 4.820166E-04, 2.561998E-03, 9.573663E-04, -2.156072E-03, -5.462109E-04, 1.693476E-03, -5.185197E-04, -7.259565E-04, 7.171689E-04, -1.809749E-05, -3.753128E-04, 2.455997E-04, 3.157448E-05, -1.476453E-04, 9.251060E-05, 6.143692E-06, -5.860778E-05, 5.108720E-05, -9.783475E-06, -3.094278E-05, 4.391267E-05, -2.116101E-05, -1.976662E-05, 4.662225E-05, 0.000000E+00, 0.000000E+00, 0.000000E+00, 0.000000E+00],
  [-1.707360E-05, 1.685998E-04, 6.375283E-04, 6.370466E-04, -3.302887E-04, -7.275123E-04, 5.252853E-04, 1.174128E-03, -1.652834E-04, -9.446489E-04, -3.307109E-05, 4.335718E-04, -2.832652E-05, -1.415965E-04, 4.584101E-05, 1.967148E-05, -1.936531E-05, 9.544403E-06, -2.768844E-06, -4.167961E-06, 6.572668E-06, -2.154764E-06, -2.739167E-06, 1.668445E-06, 2.677548E-06, -1.986813E-06, -5.238297E-06, 9.377335E-06, 0.000000E+00, 0.000000E+00, 0.000000E+00, 7.277648E-05, -3.455430E-05, -7.440206E-04, -1.526784E-03, -6.667616E-04, 1.315207E-03, 9.291934E-04, -1.169710E-03, -4.120399E-04, 1.015658E-03, -3.343680E-04, -4.078794E-04, 4.586861E-04, -6.314668E-05, -2.130974E-04, 1.728596E-04, -1.543942E-06, -8.656155E-05, 5.460391E-05, 9.921539E-06, -3.099339E-05, 7.054534E-06, 1.817420E-05, -1.375254E-05, -1.182037E-05, 2.810862E-05, -1.650540E-05, 0.000000E+00, 0.000000E+00, 0.000000E+00, 0.000000E+00],
  [-4.080304E-05, -1.611564E-04, -1.445826E-04, 2.606235E-04, 5.020989E-04, -8.770624E-05, -5.427132E-04, 1.875978E-04, 7.297575E-04, -3.307109E-05, -5.319070E-04, 8.506519E-06, 2.534060E-04, -4.391052E-05, -8.116082E-05, 3.911976E-05, 7.612286E-06, -1.402123E-05, 7.630471E-06, -2.165486E-06, -1.652654E-06, 3.951805E-06, -4.801823E-06, 2.625869E-06, 3.879138E-06, -9.815289E-06, 6.429375E-06, 6.831840E-06, 0.000000E+00, 0.000000E+00, 0.000000E+00, 5.499696E-05, 2.779282E-04, 5.056587E-04, 1.235536E-04, -7.970828E-04, -7.255811E-04, 6.186417E-04, 7.011820E-04, -6.473434E-04, -2.946484E-04, 6.189207E-04, -2.143225E-04, -2.268818E-04, 2.848414E-04, -7.495688E-05, -1.019199E-04, 1.161800E-04, -3.742545E-05, -2.915598E-05, 4.609496E-05, -2.952789E-05, 2.977842E-06, 1.937400E-05, -2.803909E-05, 1.789432E-05, 5.495822E-06, -2.601805E-05, 0.000000E+00, 0.000000E+00, 0.000000E+00, 0.000000E+00],
  [1.488364E-05, -1.401256E-05, -1.875861E-04, -3.359880E-04, -8.981331E-05, 2.535843E-04, 7.410762E-07, -3.666823E-04, 3.176690E-05, 4.335718E-04, 8.506519E-06, -3.027554E-04, 1.705027E-05, 1.455930E-04, -3.809910E-05, -4.402753E-05, 2.682692E-05, 1.945518E-06, -7.615167E-06, 5.066573E-06, -1.784343E-06, -2.812716E-06, 4.030007E-06, 1.486255E-06, -6.823760E-06, 2.763173E-06, 8.001072E-06, -1.192613E-05, 0.000000E+00, 0.000000E+00, 0.000000E+00, -3.413150E-05, -4.985278E-05, 1.361009E-04, 5.143884E-04, 4.759526E-04, -2.761542E-04, -5.872900E-04, 2.365402E-04, 4.929393E-04, -3.536476E-04, -2.057818E-04, 3.836608E-04, -1.414568E-04, -1.327766E-04, 1.866986E-04, -6.300295E-05, -6.199686E-05, 8.361105E-05, -2.675155E-05, -2.901800E-05, 3.700472E-05, -8.071135E-06, -1.966397E-05, 2.110860E-05, -6.802074E-07, -1.930092E-05, 2.092094E-05, 0.000000E+00, 0.000000E+00, 0.000000E+00, 0.000000E+00],
  [9.303109E-06, 5.884625E-05, 1.119633E-04, 1.472670E-05, -1.829378E-04, -1.188822E-04, 1.405780E-04, 3.867368E-05, -2.366016E-04, -2.832652E-05, 2.534060E-04, 1.705027E-05, -1.746157E-04, 1.766178E-05, 8.344036E-05, -3.061142E-05, -2.276701E-05, 1.879981E-05, -5.215943E-07, -3.931526E-06, 7.008630E-07, -6.602325E-07, 4.191336E-06, -4.195008E-06, -2.815491E-06, 9.872824E-06, -6.848584E-06, -5.748263E-06, 0.000000E+00, 0.000000E+00, 0.000000E+00, -1.033271E-05, -8.027790E-05, -2.113029E-04, -1.943505E-04, 1.461888E-04, 3.784026E-04, -2.223031E-05, -3.923319E-04, 6.187141E-05, 3.304789E-04, -1.916371E-04, -1.445850E-04, 2.371864E-04, -8.653317E-05, -7.613155E-05, 1.093897E-04, -4.347161E-05, -2.317220E-05, 3.906555E-05, -2.036562E-05, 1.567469E-06, 4.773349E-06, -6.028253E-06, 8.873171E-06, -1.038762E-05, 5.055010E-06, 6.176952E-06, 0.000000E+00, 0.000000E+00, 0.000000E+00, 0.000000E+00],
  [-8.362120E-06, -1.453736E-05, 3.288888E-05, 1.352419E-04, 1.286436E-04, -4.341158E-05, -8.870825E-05, 7.479037E-05, 5.106397E-05, -1.415965E-04, -4.391052E-05, 1.455930E-04, 1.766178E-05, -1.010040E-04, 1.276777E-05, 4.757815E-05, -2.136161E-05, -1.088528E-05, 1.273327E-05, -3.717027E-06, -2.278880E-06, 5.477063E-06, -4.171373E-06, -2.686985E-06, 7.901383E-06, -3.591034E-06, -6.733128E-06, 1.088169E-05, 0.000000E+00, 0.000000E+00, 0.000000E+00, 1.622470E-05, 4.366032E-05, 1.711046E-05, -1.297489E-04, -2.388679E-04, -4.341018E-05, 2.413820E-04, 7.814964E-05, -2.413888E-04, -1.324957E-05, 2.144797E-04, -1.028806E-04, -9.653491E-05, 1.488605E-04, -6.113110E-05, -4.093042E-05, 7.415655E-05, -4.133738E-05, -8.767066E-06, 3.472613E-05, -2.733895E-05, 2.879971E-06, 1.676859E-05, -1.954508E-05, 7.453320E-06, 8.430939E-06, -1.662619E-05, 0.000000E+00, 0.000000E+00, 0.000000E+00, 0.000000E+00],
  [-4.033451E-07, -1.612665E-05, -5.645110E-05, -6.329650E-05, 2.309029E-05, 8.784797E-05, 5.319911E-06, -5.372107E-05, 4.077765E-05, 4.584101E-05, -8.116082E-05, -3.809910E-05, 8.344036E-05, 1.276777E-05, -5.878733E-05, 9.467658E-06, 2.746385E-05, -1.390680E-05, -6.850375E-06, 7.448337E-06, 1.224596E-06, -3.123810E-06, -2.242663E-06, 5.017397E-06, 1.195768E-07, -7.152038E-06, 6.634577E-06, 2.113489E-06, 0.000000E+00, 0.000000E+00, 0.000000E+00, -1.665896E-06, 1.302949E-05, 7.174227E-05, 1.244898E-04, 3.977645E-05, -1.305643E-04, -9.975050E-05, 1.209983E-04, 9.419164E-05, -1.374976E-04, -3.666517E-05, 1.380353E-04, -5.451182E-05, -6.866219E-05, 9.630457E-05, -3.629505E-05, -2.957449E-05, 4.659319E-05, -2.087521E-05, -9.548651E-06, 1.815996E-05, -7.273960E-06, -5.209406E-06, 6.872255E-06, 6.382120E-07, -7.560204E-06, 6.558240E-06, 0.000000E+00, 0.000000E+00, 0.000000E+00, 0.000000E+00],
  [3.856370E-06, 1.177904E-05, 9.168780E-06, -3.124029E-05, -7.254428E-05, -2.903643E-05, 4.612376E-05, 1.662393E-05, -3.594119E-05, 1.967148E-05, 3.911976E-05, -4.402753E-05, -3.061142E-05, 4.757815E-05, 9.467658E-06, -3.403034E-05, 7.034849E-06, 1.415273E-05, -9.832719E-06, 1.563574E-07, 3.683386E-06, -4.635270E-06, 3.229409E-06, 1.895918E-06, -6.325371E-06, 4.018018E-06, 3.447053E-06, -7.787029E-06, 0.000000E+00, 0.000000E+00, 0.000000E+00, -7.712155E-06, -2.240174E-05, -3.342429E-05, 1.013983E-06, 8.009322E-05, 7.920287E-05, -5.003464E-05, -9.374567E-05, 5.071841E-05, 8.238798E-05, -7.473210E-05, -4.019423E-05, 8.676605E-05, -2.647561E-05, -4.529239E-05, 5.782055E-05, -2.357332E-05, -1.223419E-05, 2.455452E-05, -1.706331E-05, 4.243298E-06, 4.581357E-06, -8.156692E-06, 8.220395E-06, -5.448518E-06, -1.481127E-08, 6.217963E-06, 0.000000E+00, 0.000000E+00, 0.000000E+00, 0.000000E+00]]

/-- `Daejeon16_public_v2.f90` 836-851. -/
def coup3hj_2 : List (List Num) := [
  [-1.949596E-06, 1.779441E-06, 2.053536E-05, 4.383910E-05, 2.805399E-05, -2.674389E-05, -3.597585E-05, 1.301349E-05, 1.520632E-05, -1.936531E-05, 7.612286E-06, 2.682692E-05, -2.276701E-05, -2.136161E-05, 2.746385E-05, 7.034849E-06, -2.151421E-05, 4.028394E-06, 1.111593E-05, -6.912392E-06, -3.750221E-06, 5.839969E-06, 4.371883E-07, -5.198660E-06, 2.532968E-06, 3.630500E-06, -5.592618E-06, 1.171843E-06, 0.000000E+00, 0.000000E+00, 0.000000E+00, 6.248151E-06, 5.125205E-06, -1.597517E-05, -5.208200E-05, -5.489095E-05, 1.261355E-05, 6.599902E-05, 2.633759E-06, -6.593209E-05, 8.393350E-06, 6.086794E-05, -3.551028E-05, -3.447958E-05, 5.410307E-05, -1.397759E-05, -3.051418E-05, 3.988118E-05, -1.837008E-05, -8.445099E-06, 2.083130E-05, -1.550346E-05, 1.550294E-06, 9.425529E-06, -1.107071E-05, 4.497361E-06, 4.220085E-06, -8.667414E-06, 0.000000E+00, 0.000000E+00, 0.000000E+00, 0.000000E+00],
  [-9.764711E-07, -6.667716E-06, -1.416592E-05, -6.883063E-06, 2.013399E-05, 2.873382E-05, -3.922642E-06, -2.171389E-05, 4.970155E-06, 9.544403E-06, -1.402123E-05, 1.945518E-06, 1.879981E-05, -1.088528E-05, -1.390680E-05, 1.415273E-05, 4.028394E-06, -1.002145E-05, 2.313204E-06, 2.835768E-06, -1.900991E-06, 1.169088E-06, -1.647133E-06, 1.378386E-08, 3.011794E-06, -3.229667E-06, -3.308034E-07, 3.786911E-06, 0.000000E+00, 0.000000E+00, 0.000000E+00, 1.422450E-07, 8.388251E-06, 2.324410E-05, 2.361469E-05, -9.113418E-06, -3.934619E-05, -1.155416E-05, 3.687292E-05, 1.456565E-05, -3.831073E-05, -4.652542E-06, 3.977427E-05, -1.646144E-05, -2.647267E-05, 3.400186E-05, -5.381713E-06, -2.247988E-05, 2.521153E-05, -8.732447E-06, -7.486180E-06, 1.145659E-05, -5.202838E-06, -2.054035E-06, 3.754074E-06, -4.339639E-07, -2.913923E-06, 2.431058E-06, 0.000000E+00, 0.000000E+00, 0.000000E+00, 0.000000E+00],
  [2.189251E-06, 3.543253E-06, -2.172416E-06, -1.905201E-05, -2.827057E-05, -4.818458E-06, 2.398439E-05, 1.045800E-05, -1.483562E-05, -2.768844E-06, 7.630471E-06, -7.615167E-06, -5.215943E-07, 1.273327E-05, -6.850375E-06, -9.832719E-06, 1.111593E-05, 2.313204E-06, -9.719878E-06, 3.820109E-06, 4.768705E-06, -5.782627E-06, 1.794022E-07, 4.407943E-06, -3.321554E-06, -1.168533E-06, 3.795442E-06, -2.263859E-06, 0.000000E+00, 0.000000E+00, 0.000000E+00, -4.882703E-06, -9.370455E-06, -6.132611E-06, 1.195613E-05, 3.294480E-05, 1.851557E-05, -2.438801E-05, -2.486105E-05, 2.052012E-05, 2.169413E-05, -2.375267E-05, -1.215283E-05, 2.787291E-05, -5.241116E-06, -2.082226E-05, 2.048160E-05, -1.065643E-06, -1.410117E-05, 1.452804E-05, -6.195203E-06, -1.334660E-06, 4.364121E-06, -4.522164E-06, 3.875568E-06, -2.473037E-06, -2.856983E-07, 3.546297E-06, 0.000000E+00, 0.000000E+00, 0.000000E+00, 0.000000E+00],
  [-1.281535E-06, 1.241688E-06, 8.201926E-06, 1.439389E-05, 8.511710E-06, -8.705091E-06, -1.249488E-05, 3.902783E-06, 8.333726E-06, -4.167961E-06, -2.165486E-06, 5.066573E-06, -3.931526E-06, -3.717027E-06, 7.448337E-06, 1.563574E-07, -6.912392E-06, 2.835768E-06, 3.820109E-06, -3.247769E-06, -1.339138E-06, 2.343376E-06, 4.232095E-07, -1.958366E-06, 3.293705E-07, 1.736845E-06, -1.544511E-06, -3.790234E-07, 0.000000E+00, 0.000000E+00, 0.000000E+00, 4.950347E-06, 2.309938E-06, -8.093369E-06, -1.636270E-05, -1.439941E-05, 3.430221E-06, 1.781128E-05, 1.823206E-06, -1.712844E-05, -1.552279E-07, 1.637330E-05, -6.190000E-06, -1.253863E-05, 1.397276E-05, 1.163494E-06, -1.358540E-05, 1.167242E-05, -3.777612E-07, -9.163005E-06, 1.087467E-05, -5.898520E-06, -1.076587E-06, 5.668032E-06, -5.847529E-06, 2.407579E-06, 1.895342E-06, -4.183433E-06, 0.000000E+00, 0.000000E+00, 0.000000E+00, 0.000000E+00],
  [-6.880610E-07, -4.234492E-06, -4.547813E-06, 3.622213E-06, 1.229982E-05, 7.309097E-06, -7.468165E-06, -9.512082E-06, 3.341811E-06, 6.572668E-06, -1.652654E-06, -1.784343E-06, 7.008630E-07, -2.278880E-06, 1.224596E-06, 3.683386E-06, -3.750221E-06, -1.900991E-06, 4.768705E-06, -1.339138E-06, -3.096938E-06, 3.227247E-06, 1.219226E-07, -2.607318E-06, 1.913332E-06, 4.725603E-07, -1.829409E-06, 1.196852E-06, 0.000000E+00, 0.000000E+00, 0.000000E+00, -1.293224E-06, 6.101863E-06, 1.186740E-05, 1.054000E-06, -1.310892E-05, -1.006885E-05, 5.375611E-06, 1.022750E-05, -2.185232E-06, -9.006929E-06, 2.212572E-06, 8.417830E-06, -4.825657E-06, -6.810608E-06, 9.305442E-06, 3.511843E-07, -9.634352E-06, 8.348495E-06, 6.934455E-07, -7.760912E-06, 7.339323E-06, -1.865191E-06, -2.779746E-06, 3.273424E-06, -7.902620E-07, -1.403141E-06, 1.326180E-06, 0.000000E+00, 0.000000E+00, 0.000000E+00, 0.000000E+00],
  [2.072802E-06, 4.628224E-06, 2.262617E-07, -1.260613E-05, -1.801452E-05, -3.012387E-06, 1.345754E-05, 6.308310E-06, -7.444982E-06, -2.154764E-06, 3.951805E-06, -2.812716E-06, -6.602325E-07, 5.477063E-06, -3.123810E-06, -4.635270E-06, 5.839969E-06, 1.169088E-06, -5.782627E-06, 2.343376E-06, 3.227247E-06, -3.775395E-06, -1.069302E-07, 2.969325E-06, -1.981534E-06, -8.424198E-07, 2.208472E-06, -1.191658E-06, 0.000000E+00, 0.000000E+00, 0.000000E+00, -2.643690E-06, -1.020288E-05, -9.412330E-06, 8.820941E-06, 2.253826E-05, 8.347659E-06, -1.537939E-05, -1.125083E-05, 1.130473E-05, 9.160613E-06, -1.047986E-05, -5.486281E-06, 1.085338E-05, 2.423984E-07, -9.787644E-06, 5.997257E-06, 4.038151E-06, -8.158449E-06, 3.874056E-06, 2.388065E-06, -4.722141E-06, 3.014000E-06, -6.582722E-07, -6.578930E-08, -3.111039E-07, 1.557816E-07, 1.026962E-06, 0.000000E+00, 0.000000E+00, 0.000000E+00, 0.000000E+00],
  [-1.710121E-06, -2.257270E-06, 7.509038E-07, 6.115842E-06, 7.471797E-06, 1.094807E-06, -4.306137E-06, 1.882490E-07, 3.958065E-06, -2.739167E-06, -4.801823E-06, 4.030007E-06, 4.191336E-06, -4.171373E-06, -2.242663E-06, 3.229409E-06, 4.371883E-07, -1.647133E-06, 1.794022E-07, 4.232095E-07, 1.219226E-07, -1.069302E-07, -4.497497E-07, 3.562909E-07, 3.980902E-07, -6.912630E-07, 5.875464E-08, 6.955088E-07, 0.000000E+00, 0.000000E+00, 0.000000E+00, 3.724815E-06, 6.775108E-06, 3.631938E-06, -4.269217E-06, -9.053774E-06, -4.603536E-06, 5.214639E-06, 6.063738E-06, -3.763686E-06, -5.500946E-06, 4.208398E-06, 3.763065E-06, -5.356614E-06, -2.116383E-07, 4.664852E-06, -3.659312E-06, -3.686507E-07, 3.316255E-06, -3.392369E-06, 1.363413E-06, 1.009687E-06, -2.405598E-06, 2.479560E-06, -1.609779E-06, 3.824952E-07, 7.255288E-07, -1.388401E-06, 0.000000E+00, 0.000000E+00, 0.000000E+00, 0.000000E+00],
  [-1.589230E-07, -2.121993E-06, -8.901383E-07, 5.988434E-06, 9.042859E-06, 1.258459E-06, -6.689862E-06, -4.294461E-06, 8.463557E-07, 1.668445E-06, 2.625869E-06, 1.486255E-06, -4.195008E-06, -2.686985E-06, 5.017397E-06, 1.895918E-06, -5.198660E-06, 1.378386E-08, 4.407943E-06, -1.958366E-06, -2.607318E-06, 2.969325E-06, 3.562909E-07, -2.581406E-06, 1.412783E-06, 1.079392E-06, -1.932134E-06, 6.510913E-07, 0.000000E+00, 0.000000E+00, 0.000000E+00, -1.561796E-06, 2.539459E-06, 5.225123E-06, -4.969841E-06, -1.309337E-05, -1.623142E-06, 1.097877E-05, 2.699533E-06, -8.705774E-06, -9.624489E-07, 6.764558E-06, -1.235476E-06, -4.108791E-06, 1.937313E-06, 1.928051E-06, -1.306152E-06, -1.567896E-06, 1.767717E-06, 9.188769E-07, -2.856895E-06, 1.786774E-06, 9.577258E-07, -2.614070E-06, 1.992187E-06, -1.804928E-07, -1.017953E-06, 8.433269E-07, 0.000000E+00, 0.000000E+00, 0.000000E+00, 0.000000E+00],
  [1.995789E-06, 5.986790E-06, 2.926283E-06, -1.053257E-05, -1.758018E-05, -4.841857E-06, 9.203244E-06, 3.631815E-06, -4.386366E-06, 2.677548E-06, 3.879138E-06, -6.823760E-06, -2.815491E-06, 7.901383E-06, 1.195768E-07, -6.325371E-06, 2.532968E-06, 3.011794E-06, -3.321554E-06, 3.293705E-07, 1.913332E-06, -1.981534E-06, 3.980902E-07, 1.412783E-06, -1.824443E-06, 4.240185E-07, 1.366699E-06, -1.747568E-06, 0.000000E+00, 0.000000E+00, 0.000000E+00, -1.415774E-06, -1.114069E-05, -1.416352E-05, 6.057522E-06, 2.389069E-05, 9.408657E-06, -1.546495E-05, -1.094499E-05, 1.136315E-05, 8.221718E-06, -1.011426E-05, -3.947939E-06, 8.702702E-06, -1.717492E-07, -6.263881E-06, 3.018776E-06, 3.124630E-06, -4.259729E-06, 4.939933E-07, 3.032904E-06, -2.950933E-06, 2.523502E-07, 1.970959E-06, -1.917270E-06, 3.216789E-07, 8.772586E-07, -5.967069E-07, 0.000000E+00, 0.000000E+00, 0.000000E+00, 0.000000E+00],
  [-2.217346E-06, -6.222168E-06, -5.327781E-06, 3.681071E-06, 1.101944E-05, 5.771418E-06, -3.900897E-06, -8.726764E-07, 6.348998E-06, -1.986813E-06, -9.815289E-06, 2.763173E-06, 9.872824E-06, -3.591034E-06, -7.152038E-06, 4.018018E-06, 3.630500E-06, -3.229667E-06, -1.168533E-06, 1.736845E-06, 4.725603E-07, -8.424198E-07, -6.912630E-07, 1.079392E-06, 4.240185E-07, -1.581447E-06, 7.422163E-07, 1.058537E-06, 0.000000E+00, 0.000000E+00, 0.000000E+00, 2.312018E-06, 1.196720E-05, 1.628813E-05, 2.418002E-06, -1.344347E-05, -1.207870E-05, 3.331572E-06, 1.179946E-05, -6.454614E-07, -1.053017E-05, 2.076404E-06, 8.135098E-06, -4.575727E-06, -4.179536E-06, 5.709756E-06, -5.010253E-07, -3.874119E-06, 3.472888E-06, -1.285429E-07, -2.484817E-06, 2.504126E-06, -6.538122E-07, -1.141615E-06, 1.550063E-06, -6.756023E-07, -3.794785E-07, 6.205385E-07, 0.000000E+00, 0.000000E+00, 0.000000E+00, 0.000000E+00],
  [5.668555E-07, 1.855807E-06, 4.152554E-06, 6.933476E-06, 5.123201E-06, -1.621058E-06, -2.919716E-06, 2.577198E-07, -3.843304E-06, -5.238297E-06, 6.429375E-06, 8.001072E-06, -6.848584E-06, -6.733128E-06, 6.634577E-06, 3.447053E-06, -5.592618E-06, -3.308034E-07, 3.795442E-06, -1.544511E-06, -1.829409E-06, 2.208472E-06, 5.875464E-08, -1.932134E-06, 1.366699E-06, 7.422163E-07, -1.912510E-06, 9.441379E-07, 0.000000E+00, 0.000000E+00, 0.000000E+00, -3.909131E-07, -3.519724E-06, -6.831821E-06, -9.911282E-06, -9.895239E-06, 3.639291E-06, 1.408294E-05, -1.677527E-06, -1.326597E-05, 3.651305E-06, 9.810979E-06, -6.070436E-06, -4.431809E-06, 6.165336E-06, -7.207333E-07, -3.104854E-06, 2.605663E-06, -4.773211E-07, -8.643366E-07, 1.111600E-06, -8.476194E-07, 4.259202E-07, 1.090089E-07, -6.284735E-07, 7.953931E-07, -4.079497E-07, -2.538399E-07, 0.000000E+00, 0.000000E+00, 0.000000E+00, 0.000000E+00],
  [1.621610E-06, 4.447684E-06, 1.829529E-06, -1.058465E-05, -1.746914E-05, -4.586936E-06, 7.222214E-06, -1.451231E-06, -4.965161E-06, 9.377335E-06, 6.831840E-06, -1.192613E-05, -5.748263E-06, 1.088169E-05, 2.113489E-06, -7.787029E-06, 1.171843E-06, 3.786911E-06, -2.263859E-06, -3.790234E-07, 1.196852E-06, -1.191658E-06, 6.955088E-07, 6.510913E-07, -1.747568E-06, 1.058537E-06, 9.441379E-07, -2.073398E-06, 0.000000E+00, 0.000000E+00, 0.000000E+00, -2.349719E-06, -8.144832E-06, -1.021299E-05, 5.811718E-06, 2.608272E-05, 1.239687E-05, -1.994232E-05, -1.352084E-05, 1.637104E-05, 8.738285E-06, -1.404730E-05, -2.234403E-06, 1.031244E-05, -2.865026E-06, -4.984123E-06, 4.222476E-06, 5.732107E-07, -2.657815E-06, 1.093236E-06, 9.909629E-07, -1.190561E-06, -1.361454E-07, 1.149512E-06, -7.533053E-07, -4.855048E-07, 1.200260E-06, -6.917472E-07, 0.000000E+00, 0.000000E+00, 0.000000E+00, 0.000000E+00],
  [0.000000E+00, 0.000000E+00, 0.000000E+00, 0.000000E+00, 0.000000E+00, 0.000000E+00, 0.000000E+00, 0.000000E+00, 0.000000E+00, 0.000000E+00, 0.000000E+00, 0.000000E+00, 0.000000E+00, 0.000000E+00, 0.000000E+00, 0.000000E+00, 0.000000E+00, 0.000000E+00, 0.000000E+00, 0.000000E+00, 0.000000E+00, 0.000000E+00, 0.000000E+00, 0.000000E+00, 0.000000E+00, 0.000000E+00, 0.000000E+00, 0.000000E+00, 0.000000E+00, 0.000000E+00, 0.000000E+00, 0.000000E+00, 0.000000E+00, 0.000000E+00, 0.000000E+00, 0.000000E+00, 0.000000E+00, 0.000000E+00, 0.000000E+00, 0.000000E+00, 0.000000E+00, 0.000000E+00, 0.000000E+00, 0.000000E+00, 0.000000E+00, 0.000000E+00, 0.000000E+00, 0.000000E+00, 0.000000E+00, 0.000000E+00, 0.000000E+00, 0.000000E+00, 0.000000E+00, 0.000000E+00, 0.000000E+00, 0.000000E+00, 0.000000E+00, 0.000000E+00, 0.000000E+00, 0.000000E+00, 0.000000E+00, 0.000000E+00],
  [0.000000E+00, 0.000000E+00, 0.000000E+00, 0.000000E+00, 0.000000E+00, 0.000000E+00, 0.000000E+00, 0.000000E+00, 0.000000E+00, 0.000000E+00, 0.000000E+00, 0.000000E+00, 0.000000E+00, 0.000000E+00, 0.000000E+00, 0.000000E+00, 0.000000E+00, 0.000000E+00, 0.000000E+00, 0.000000E+00, 0.000000E+00, 0.000000E+00, 0.000000E+00, 0.000000E+00, 0.000000E+00, 0.000000E+00, 0.000000E+00, 0.000000E+00, 0.000000E+00, 0.000000E+00, 0.000000E+00, 0.000000E+00, 0.000000E+00, 0.000000E+00, 0.000000E+00, 0.000000E+00, 0.000000E+00, 0.000000E+00, 0.000000E+00, 0.000000E+00, 0.000000E+00, 0.000000E+00, 0.000000E+00, 0.000000E+00, 0.000000E+00, 0.000000E+00, 0.000000E+00, 0.000000E+00, 0.000000E+00, 0.000000E+00, 0.000000E+00, 0.000000E+00, 0.000000E+00, 0.000000E+00, 0.000000E+00, 0.000000E+00, 0.000000E+00, 0.000000E+00, 0.000000E+00, 0.000000E+00, 0.000000E+00, 0.000000E+00],
  [0.000000E+00, 0.000000E+00, 0.000000E+00, 0.000000E+00, 0.000000E+00, 0.000000E+00, 0.000000E+00, 0.000000E+00, 0.000000E+00, 0.000000E+00, 0.000000E+00, 0.000000E+00, 0.000000E+00, 0.000000E+00, 0.000000E+00, 0.000000E+00, 0.000000E+00, 0.000000E+00, 0.000000E+00, 0.000000E+00, 0.000000E+00, 0.000000E+00, 0.000000E+00, 0.000000E+00, 0.000000E+00, 0.000000E+00, 0.000000E+00, 0.000000E+00, 0.000000E+00, 0.000000E+00, 0.000000E+00, 0.000000E+00, 0.000000E+00, 0.000000E+00, 0.000000E+00, 0.000000E+00, 0.000000E+00, 0.000000E+00, 0.000000E+00, 0.000000E+00, 0.000000E+00, 0.000000E+00, 0.000000E+00, 0.000000E+00, 0.000000E+00, 0.000000E+00, 0.000000E+00, 0.000000E+00, 0.000000E+00, 0.000000E+00, 0.000000E+00, 0.000000E+00, 0.000000E+00, 0.000000E+00, 0.000000E+00, 0.000000E+00, 0.000000E+00, 0.000000E+00, 0.000000E+00, 0.000000E+00, 0.000000E+00, 0.000000E+00],
  [1.604523E-01, 7.712334E-02, 1.213793E-02, -7.197672E-03, -3.683731E-03, 8.392632E-04, 8.836065E-04, -1.816802E-04, -2.232245E-04, 7.277648E-05, 5.499696E-05, -3.413150E-05, -1.033271E-05, 1.622470E-05, -1.665896E-06, -7.712155E-06, 6.248151E-06, 1.422450E-07, -4.882703E-06, 4.950347E-06, -1.293224E-06, -2.643690E-06, 3.724815E-06, -1.561796E-06, -1.415774E-06, 2.312018E-06, -3.909131E-07, -2.349719E-06, 0.000000E+00, 0.000000E+00, 0.000000E+00, -3.339640E-02, -1.847600E-02, -1.952237E-03, 2.875031E-03, 8.550024E-04, -6.078861E-04, -2.193268E-04, 1.783132E-04, 4.192894E-05, -6.151186E-05, 5.938048E-07, 2.042492E-05, -6.974367E-06, -4.814523E-06, 4.814143E-06, -3.947142E-07, -2.063504E-06, 1.730129E-06, -1.329186E-07, -1.321855E-06, 1.753163E-06, -8.428198E-07, -8.773299E-07, 2.145109E-06, -1.851166E-06, 3.550007E-08, 1.977057E-06, 0.000000E+00, 0.000000E+00, 0.000000E+00, 0.000000E+00]]

/-- `Daejeon16_public_v2.f90` 852-867. -/
def coup3hj_3 : List (List Num) := [
  [8.358862E-02, 1.373557E-01, 5.966047E-02, -3.959785E-03, -1.321701E-02, -1.358638E-03, 3.093957E-03, 4.273943E-04, -8.787650E-04, -3.455430E-05, 2.779282E-04, -4.985278E-05, -8.027790E-05, 4.366032E-05, 1.302949E-05, -2.240174E-05, 5.125205E-06, 8.388251E-06, -9.370455E-06, 2.309938E-06, 6.101863E-06, -1.020288E-05, 6.775108E-06, 2.539459E-06, -1.114069E-05, 1.196720E-05, -3.519724E-06, -8.144832E-06, 0.000000E+00, 0.000000E+00, 0.000000E+00, -1.847600E-02, -2.984646E-02, -1.300813E-02, 2.827556E-03, 3.895165E-03, -3.962608E-04, -1.127086E-03, 1.875977E-04, 3.313812E-04, -1.222146E-04, -8.285788E-05, 6.593063E-05, 8.132160E-06, -2.713494E-05, 7.572260E-06, 7.661582E-06, -7.042228E-06, 5.325018E-07, 3.140985E-06, -3.166944E-06, 1.857551E-06, -2.177630E-07, -1.916878E-06, 3.883962E-06, -3.881858E-06, 8.364554E-07, 3.803828E-06, 0.000000E+00, 0.000000E+00, 0.000000E+00, 0.000000E+00],
  [4.215134E-03, 5.852949E-02, 8.305468E-02, 2.400888E-02, -1.541113E-02, -9.412744E-03, 3.393165E-03, 2.798505E-03, -1.164358E-03, -7.440206E-04, 5.056587E-04, 1.361009E-04, -2.113029E-04, 1.711046E-05, 7.174227E-05, -3.342429E-05, -1.597517E-05, 2.324410E-05, -6.132611E-06, -8.093369E-06, 1.186740E-05, -9.412330E-06, 3.631938E-06, 5.225123E-06, -1.416352E-05, 1.628813E-05, -6.831821E-06, -1.021299E-05, 0.000000E+00, 0.000000E+00, 0.000000E+00, -1.952237E-03, -1.300813E-02, -1.734940E-02, -4.116694E-03, 4.812640E-03, 1.959255E-03, -1.576890E-03, -5.709993E-04, 6.255863E-04, 8.214702E-05, -2.485216E-04, 4.313732E-05, 8.049744E-05, -4.770995E-05, -1.271965E-05, 2.579034E-05, -6.877965E-06, -8.172547E-06, 7.395920E-06, 2.199339E-07, -3.774287E-06, 1.266560E-06, 2.145364E-06, -1.647084E-06, -2.157553E-06, 4.457466E-06, -1.627403E-06, 0.000000E+00, 0.000000E+00, 0.000000E+00, 0.000000E+00],
  [-1.418411E-02, -1.591862E-02, 1.924879E-02, 3.635529E-02, 3.522810E-03, -1.286735E-02, -2.317510E-03, 4.298856E-03, 4.820166E-04, -1.526784E-03, 1.235536E-04, 5.143884E-04, -1.943505E-04, -1.297489E-04, 1.244898E-04, 1.013983E-06, -5.208200E-05, 2.361469E-05, 1.195613E-05, -1.636270E-05, 1.054000E-06, 8.820941E-06, -4.269217E-06, -4.969841E-06, 6.057522E-06, 2.418002E-06, -9.911282E-06, 5.811718E-06, 0.000000E+00, 0.000000E+00, 0.000000E+00, 2.875031E-03, 2.827556E-03, -4.116694E-03, -7.243615E-03, -1.802345E-04, 3.216886E-03, 9.841259E-05, -1.293368E-03, 1.627285E-04, 4.754729E-04, -1.962122E-04, -1.269078E-04, 1.273527E-04, -3.778927E-07, -5.387370E-05, 2.674254E-05, 1.071360E-05, -1.950802E-05, 6.207842E-06, 8.162876E-06, -1.092847E-05, 2.649113E-06, 7.640886E-06, -1.051260E-05, 3.405237E-06, 7.435492E-06, -1.220921E-05, 0.000000E+00, 0.000000E+00, 0.000000E+00, 0.000000E+00],
  [-2.550851E-03, -1.784263E-02, -2.450312E-02, -4.020479E-04, 1.551269E-02, -3.519748E-04, -6.923382E-03, 5.737530E-04, 2.561998E-03, -6.667616E-04, -7.970828E-04, 4.759526E-04, 1.461888E-04, -2.388679E-04, 3.977645E-05, 8.009322E-05, -5.489095E-05, -9.113418E-06, 3.294480E-05, -1.439941E-05, -1.310892E-05, 2.253826E-05, -9.053774E-06, -1.309337E-05, 2.389069E-05, -1.344347E-05, -9.895239E-06, 2.608272E-05, 0.000000E+00, 0.000000E+00, 0.000000E+00, 8.550024E-04, 3.895165E-03, 4.812640E-03, -1.802345E-04, -3.325180E-03, 1.744475E-04, 1.646580E-03, -3.339831E-04, -6.579323E-04, 3.215717E-04, 1.788754E-04, -2.027522E-04, 6.403498E-06, 8.406740E-05, -4.371385E-05, -1.335723E-05, 2.674183E-05, -1.106810E-05, -4.092761E-06, 8.758293E-06, -6.801346E-06, 2.137841E-06, 3.806957E-06, -8.219540E-06, 6.878111E-06, 1.076631E-06, -1.025150E-05, 0.000000E+00, 0.000000E+00, 0.000000E+00, 0.000000E+00],
  [3.131985E-03, 3.127485E-03, -9.064110E-03, -1.717130E-02, -2.469372E-03, 8.698403E-03, -5.354310E-04, -3.845698E-03, 9.573663E-04, 1.315207E-03, -7.255811E-04, -2.761542E-04, 3.784026E-04, -4.341018E-05, -1.305643E-04, 7.920287E-05, 1.261355E-05, -3.934619E-05, 1.851557E-05, 3.430221E-06, -1.006885E-05, 8.347659E-06, -4.603536E-06, -1.623142E-06, 9.408657E-06, -1.207870E-05, 3.639291E-06, 1.239687E-05, 0.000000E+00, 0.000000E+00, 0.000000E+00, -6.078861E-04, -3.962608E-04, 1.959255E-03, 3.216886E-03, 1.744475E-04, -1.934464E-03, 1.908638E-04, 9.350650E-04, -3.347604E-04, -3.260641E-04, 2.661187E-04, 3.861889E-05, -1.346659E-04, 4.658850E-05, 3.661465E-05, -4.002178E-05, 4.719153E-06, 1.593870E-05, -1.040554E-05, -3.055073E-06, 7.247038E-06, -1.040430E-06, -5.734882E-06, 4.991691E-06, 2.184305E-06, -7.988595E-06, 6.055202E-06, 0.000000E+00, 0.000000E+00, 0.000000E+00, 0.000000E+00],
  [5.490814E-04, 5.067515E-03, 8.347425E-03, 1.423195E-04, -8.557641E-03, -1.592479E-03, 4.926939E-03, -7.077609E-04, -2.156072E-03, 9.291934E-04, 6.186417E-04, -5.872900E-04, -2.223031E-05, 2.413820E-04, -9.975050E-05, -5.003464E-05, 6.599902E-05, -1.155416E-05, -2.438801E-05, 1.781128E-05, 5.375611E-06, -1.537939E-05, 5.214639E-06, 1.097877E-05, -1.546495E-05, 3.331572E-06, 1.408294E-05, -1.994232E-05, 0.000000E+00, 0.000000E+00, 0.000000E+00, -2.193268E-04, -1.127086E-03, -1.576890E-03, 9.841259E-05, 1.646580E-03, 1.908638E-04, -1.066199E-03, 1.892613E-04, 5.084852E-04, -2.755243E-04, -1.384862E-04, 1.880841E-04, -2.365774E-05, -7.368621E-05, 5.060799E-05, 4.159898E-06, -2.602316E-05, 1.581418E-05, 1.099160E-06, -9.618942E-06, 8.612034E-06, -2.187850E-06, -5.013316E-06, 8.415986E-06, -5.171450E-06, -3.035630E-06, 1.002299E-05, 0.000000E+00, 0.000000E+00, 0.000000E+00, 0.000000E+00],
  [-8.696339E-04, -1.350935E-03, 2.447255E-03, 7.046339E-03, 2.570717E-03, -4.526095E-03, -1.232483E-03, 2.825122E-03, -5.462109E-04, -1.169710E-03, 7.011820E-04, 2.365402E-04, -3.923319E-04, 7.814964E-05, 1.209983E-04, -9.374567E-05, 2.633759E-06, 3.687292E-05, -2.486105E-05, 1.823206E-06, 1.022750E-05, -1.125083E-05, 6.063738E-06, 2.699533E-06, -1.094499E-05, 1.179946E-05, -1.677527E-06, -1.352084E-05, 0.000000E+00, 0.000000E+00, 0.000000E+00, 1.783132E-04, 1.875977E-04, -5.709993E-04, -1.293368E-03, -3.339831E-04, 9.350650E-04, 1.892613E-04, -6.206539E-04, 1.310528E-04, 2.802309E-04, -1.926652E-04, -4.980537E-05, 1.181334E-04, -3.774884E-05, -3.489613E-05, 3.715235E-05, -5.065045E-06, -1.424401E-05, 1.009238E-05, 1.622915E-06, -5.663889E-06, 9.006339E-07, 4.292894E-06, -3.296679E-06, -2.576049E-06, 6.709978E-06, -4.309109E-06, 0.000000E+00, 0.000000E+00, 0.000000E+00, 0.000000E+00],
  [-3.037207E-05, -1.375170E-03, -3.283132E-03, -1.225767E-03, 3.487446E-03, 2.187285E-03, -2.447215E-03, -7.909103E-04, 1.693476E-03, -4.120399E-04, -6.473434E-04, 4.929393E-04, 6.187141E-05, -2.413888E-04, 9.419164E-05, 5.071841E-05, -6.593209E-05, 1.456565E-05, 2.052012E-05, -1.712844E-05, -2.185232E-06, 1.130473E-05, -3.763686E-06, -8.705774E-06, 1.136315E-05, -6.454614E-07, -1.326597E-05, 1.637104E-05, 0.000000E+00, 0.000000E+00, 0.000000E+00, 4.192894E-05, 3.313812E-04, 6.255863E-04, 1.627285E-04, -6.579323E-04, -3.347604E-04, 5.084852E-04, 1.310528E-04, -3.660745E-04, 9.396183E-05, 1.547085E-04, -1.296158E-04, -9.298043E-06, 6.921114E-05, -3.622176E-05, -1.033272E-05, 2.389459E-05, -1.203144E-05, -2.399321E-06, 8.397662E-06, -6.817212E-06, 1.643569E-06, 3.787121E-06, -6.452267E-06, 4.285168E-06, 1.707974E-06, -7.143524E-06, 0.000000E+00, 0.000000E+00, 0.000000E+00, 0.000000E+00],
  [2.592661E-04, 7.063909E-04, -1.856231E-04, -2.543227E-03, -2.124848E-03, 1.531394E-03, 1.646198E-03, -1.311425E-03, -5.185197E-04, 1.015658E-03, -2.946484E-04, -3.536476E-04, 3.304789E-04, -1.324957E-05, -1.374976E-04, 8.238798E-05, 8.393350E-06, -3.831073E-05, 2.169413E-05, -1.552279E-07, -9.006929E-06, 9.160613E-06, -5.500946E-06, -9.624489E-07, 8.221718E-06, -1.053017E-05, 3.651305E-06, 8.738285E-06, 0.000000E+00, 0.000000E+00, 0.000000E+00, -6.151186E-05, -1.222146E-04, 8.214702E-05, 4.754729E-04, 3.215717E-04, -3.260641E-04, -2.755243E-04, 2.802309E-04, 9.396183E-05, -2.188944E-04, 6.352676E-05, 8.632690E-05, -8.471113E-05, 4.950811E-06, 4.043419E-05, -2.746908E-05, -2.916739E-06, 1.545762E-05, -8.083197E-06, -3.157634E-06, 6.187943E-06, -1.272898E-06, -4.006807E-06, 3.814260E-06, 1.110448E-06, -5.397469E-06, 4.631318E-06, 0.000000E+00, 0.000000E+00, 0.000000E+00, 0.000000E+00],
  [-5.188257E-05, 2.782464E-04, 1.238700E-03, 1.218214E-03, -8.608316E-04, -1.634618E-03, 5.861432E-04, 1.103501E-03, -7.259565E-04, -3.343680E-04, 6.189207E-04, -2.057818E-04, -1.916371E-04, 2.144797E-04, -3.666517E-05, -7.473210E-05, 6.086794E-05, -4.652542E-06, -2.375267E-05, 1.637330E-05, 2.212572E-06, -1.047986E-05, 4.208398E-06, 6.764558E-06, -1.011426E-05, 2.076404E-06, 9.810979E-06, -1.404730E-05, 0.000000E+00, 0.000000E+00, 0.000000E+00, 5.938048E-07, -8.285788E-05, -2.485216E-04, -1.962122E-04, 1.788754E-04, 2.661187E-04, -1.384862E-04, -1.926652E-04, 1.547085E-04, 6.352676E-05, -1.318816E-04, 4.224657E-05, 4.735964E-05, -5.298399E-05, 9.819506E-06, 1.995909E-05, -1.833844E-05, 3.795892E-06, 5.308771E-06, -6.034282E-06, 3.387136E-06, -6.836021E-07, -1.791958E-06, 3.671902E-06, -3.445123E-06, 4.381450E-07, 3.529188E-06, 0.000000E+00, 0.000000E+00, 0.000000E+00, 0.000000E+00],
  [-6.889208E-05, -3.206643E-04, -3.121016E-04, 6.180158E-04, 1.254160E-03, -4.118526E-05, -1.096324E-03, 1.543135E-04, 7.171689E-04, -4.078794E-04, -2.143225E-04, 3.836608E-04, -1.445850E-04, -1.028806E-04, 1.380353E-04, -4.019423E-05, -3.551028E-05, 3.977427E-05, -1.215283E-05, -6.190000E-06, 8.417830E-06, -5.486281E-06, 3.763065E-06, -1.235476E-06, -3.947939E-06, 8.135098E-06, -6.070436E-06, -2.234403E-06, 0.000000E+00, 0.000000E+00, 0.000000E+00, 2.042492E-05, 6.593063E-05, 4.313732E-05, -1.269078E-04, -2.027522E-04, 3.861889E-05, 1.880841E-04, -4.980537E-05, -1.296158E-04, 8.632690E-05, 4.224657E-05, -8.107159E-05, 2.907567E-05, 2.665392E-05, -3.505130E-05, 1.016823E-05, 1.186265E-05, -1.422578E-05, 3.902177E-06, 5.307164E-06, -6.404110E-06, 1.385486E-06, 3.640224E-06, -4.259901E-06, 6.497519E-07, 3.511278E-06, -4.531645E-06, 0.000000E+00, 0.000000E+00, 0.000000E+00, 0.000000E+00],
  [4.018831E-05, 9.074283E-06, -3.597891E-04, -7.317336E-04, -1.443642E-04, 7.779367E-04, 2.498823E-04, -6.618713E-04, -1.809749E-05, 4.586861E-04, -2.268818E-04, -1.414568E-04, 2.371864E-04, -9.653491E-05, -5.451182E-05, 8.676605E-05, -3.447958E-05, -1.646144E-05, 2.787291E-05, -1.253863E-05, -4.825657E-06, 1.085338E-05, -5.356614E-06, -4.108791E-06, 8.702702E-06, -4.575727E-06, -4.431809E-06, 1.031244E-05, 0.000000E+00, 0.000000E+00, 0.000000E+00, -6.974367E-06, 8.132160E-06, 8.049744E-05, 1.273527E-04, 6.403498E-06, -1.346659E-04, -2.365774E-05, 1.181334E-04, -9.298043E-06, -8.471113E-05, 4.735964E-05, 2.907567E-05, -4.959399E-05, 1.781373E-05, 1.525821E-05, -2.053384E-05, 6.690516E-06, 5.271839E-06, -6.517836E-06, 2.098681E-06, 7.547794E-07, -4.847380E-07, -2.243233E-07, -5.658883E-07, 1.939041E-06, -1.884485E-06, -1.321387E-07, 0.000000E+00, 0.000000E+00, 0.000000E+00, 0.000000E+00],
  [9.818584E-06, 1.114020E-04, 2.603405E-04, 5.261974E-05, -4.811785E-04, -3.583177E-04, 3.965479E-04, 2.839682E-04, -3.753128E-04, -6.314668E-05, 2.848414E-04, -1.327766E-04, -8.653317E-05, 1.488605E-04, -6.866219E-05, -2.647561E-05, 5.410307E-05, -2.647267E-05, -5.241116E-06, 1.397276E-05, -6.810608E-06, 2.423984E-07, -2.116383E-07, 1.937313E-06, -1.717492E-07, -4.179536E-06, 6.165336E-06, -2.865026E-06, 0.000000E+00, 0.000000E+00, 0.000000E+00, -4.814523E-06, -2.713494E-05, -4.770995E-05, -3.778927E-07, 8.406740E-05, 4.658850E-05, -7.368621E-05, -3.774884E-05, 6.921114E-05, 4.950811E-06, -5.298399E-05, 2.665392E-05, 1.781373E-05, -3.035693E-05, 1.310231E-05, 7.166146E-06, -1.342308E-05, 7.262355E-06, 1.401170E-06, -5.609614E-06, 4.480257E-06, -6.889078E-07, -2.578430E-06, 3.352462E-06, -1.548256E-06, -1.273869E-06, 3.024759E-06, 0.000000E+00, 0.000000E+00, 0.000000E+00, 0.000000E+00],
  [-1.992259E-05, -4.696407E-05, 3.371227E-05, 2.848545E-04, 3.014612E-04, -1.723633E-04, -3.423321E-04, 1.669153E-04, 2.455997E-04, -2.130974E-04, -7.495688E-05, 1.866986E-04, -7.613155E-05, -6.113110E-05, 9.630457E-05, -4.529239E-05, -1.397759E-05, 3.400186E-05, -2.082226E-05, 1.163494E-06, 9.305442E-06, -9.787644E-06, 4.664852E-06, 1.928051E-06, -6.263881E-06, 5.709756E-06, -7.207333E-07, -4.984123E-06, 0.000000E+00, 0.000000E+00, 0.000000E+00, 4.814143E-06, 7.572260E-06, -1.271965E-05, -5.387370E-05, -4.371385E-05, 3.661465E-05, 5.060799E-05, -3.489613E-05, -3.622176E-05, 4.043419E-05, 9.819506E-06, -3.505130E-05, 1.525821E-05, 1.310231E-05, -2.023545E-05, 8.078706E-06, 5.622910E-06, -9.088101E-06, 3.753456E-06, 2.287925E-06, -3.647354E-06, 1.050435E-06, 1.623977E-06, -1.770642E-06, -1.555318E-07, 1.923574E-06, -1.833621E-06, 0.000000E+00, 0.000000E+00, 0.000000E+00, 0.000000E+00],
  [5.517454E-06, -2.409972E-05, -1.220812E-04, -1.633099E-04, 4.921500E-05, 2.542272E-04, 1.594892E-05, -2.342687E-04, 3.157448E-05, 1.728596E-04, -1.019199E-04, -6.300295E-05, 1.093897E-04, -4.093042E-05, -3.629505E-05, 5.782055E-05, -3.051418E-05, -5.381713E-06, 2.048160E-05, -1.358540E-05, 3.511843E-07, 5.997257E-06, -3.659312E-06, -1.306152E-06, 3.018776E-06, -5.010253E-07, -3.104854E-06, 4.222476E-06, 0.000000E+00, 0.000000E+00, 0.000000E+00, -3.947142E-07, 7.661582E-06, 2.579034E-05, 2.674254E-05, -1.335723E-05, -4.002178E-05, 4.159898E-06, 3.715235E-05, -1.033272E-05, -2.746908E-05, 1.995909E-05, 1.016823E-05, -2.053384E-05, 7.166146E-06, 8.078706E-06, -1.109987E-05, 4.724723E-06, 1.944171E-06, -4.042421E-06, 2.615108E-06, -6.221179E-07, -4.703338E-07, 8.950354E-07, -1.127462E-06, 1.062283E-06, -3.886501E-07, -7.277423E-07, 0.000000E+00, 0.000000E+00, 0.000000E+00, 0.000000E+00],
  [6.945661E-06, 3.211019E-05, 4.408158E-05, -4.440093E-05, -1.626380E-04, -5.919708E-05, 1.561222E-04, 5.920051E-05, -1.476453E-04, -1.543942E-06, 1.161800E-04, -6.199686E-05, -4.347161E-05, 7.415655E-05, -2.957449E-05, -2.357332E-05, 3.988118E-05, -2.247988E-05, -1.065643E-06, 1.167242E-05, -9.634352E-06, 4.038151E-06, -3.686507E-07, -1.567896E-06, 3.124630E-06, -3.874119E-06, 2.605663E-06, 5.732107E-07, 0.000000E+00, 0.000000E+00, 0.000000E+00, -2.063504E-06, -7.042228E-06, -6.877965E-06, 1.071360E-05, 2.674183E-05, 4.719153E-06, -2.602316E-05, -5.065045E-06, 2.389459E-05, -2.916739E-06, -1.833844E-05, 1.186265E-05, 6.690516E-06, -1.342308E-05, 5.622910E-06, 4.724723E-06, -8.245712E-06, 4.649767E-06, 9.848515E-07, -4.009850E-06, 3.218678E-06, -3.982026E-07, -1.885729E-06, 2.198640E-06, -7.991125E-07, -9.825084E-07, 1.817375E-06, 0.000000E+00, 0.000000E+00, 0.000000E+00, 0.000000E+00]]

/-- `Daejeon16_public_v2.f90` 868-881. -/
def coup3hj_4 : List (List Num) := [
  [-8.306185E-06, -7.274173E-06, 3.106506E-05, 1.051233E-04, 8.330915E-05, -8.204346E-05, -1.165676E-04, 7.245089E-05, 9.251060E-05, -8.656155E-05, -3.742545E-05, 8.361105E-05, -2.317220E-05, -4.133738E-05, 4.659319E-05, -1.223419E-05, -1.837008E-05, 2.521153E-05, -1.410117E-05, -3.777612E-07, 8.348495E-06, -8.158449E-06, 3.316255E-06, 1.767717E-06, -4.259729E-06, 3.472888E-06, -4.773211E-07, -2.657815E-06, 0.000000E+00, 0.000000E+00, 0.000000E+00, 1.730129E-06, 5.325018E-07, -8.172547E-06, -1.950802E-05, -1.106810E-05, 1.593870E-05, 1.581418E-05, -1.424401E-05, -1.203144E-05, 1.545762E-05, 3.795892E-06, -1.422578E-05, 5.271839E-06, 7.262355E-06, -9.088101E-06, 1.944171E-06, 4.649767E-06, -5.326066E-06, 1.735719E-06, 1.685577E-06, -2.343834E-06, 8.031650E-07, 8.187839E-07, -1.059506E-06, 7.561495E-08, 9.369433E-07, -9.764121E-07, 0.000000E+00, 0.000000E+00, 0.000000E+00, 0.000000E+00],
  [1.914998E-06, -1.207585E-05, -3.491392E-05, -3.874216E-05, 1.547107E-05, 6.750029E-05, 5.206168E-06, -6.626493E-05, 6.143692E-06, 5.460391E-05, -2.915598E-05, -2.675155E-05, 3.906555E-05, -8.767066E-06, -2.087521E-05, 2.455452E-05, -8.445099E-06, -8.732447E-06, 1.452804E-05, -9.163005E-06, 6.934455E-07, 3.874056E-06, -3.392369E-06, 9.188769E-07, 4.939933E-07, -1.285429E-07, -8.643366E-07, 1.093236E-06, 0.000000E+00, 0.000000E+00, 0.000000E+00, -1.329186E-07, 3.140985E-06, 7.395920E-06, 6.207842E-06, -4.092761E-06, -1.040554E-05, 1.099160E-06, 1.009238E-05, -2.399321E-06, -8.083197E-06, 5.308771E-06, 3.902177E-06, -6.517836E-06, 1.401170E-06, 3.753456E-06, -4.042421E-06, 9.848515E-07, 1.735719E-06, -2.353307E-06, 1.415351E-06, -1.962319E-07, -5.528759E-07, 7.819269E-07, -7.042442E-07, 4.335469E-07, 6.046572E-09, -4.879138E-07, 0.000000E+00, 0.000000E+00, 0.000000E+00, 0.000000E+00],
  [5.499942E-06, 1.636706E-05, 2.953806E-06, -4.026003E-05, -5.628908E-05, 6.167583E-06, 6.330753E-05, 3.302951E-06, -5.860778E-05, 9.921539E-06, 4.609496E-05, -2.901800E-05, -2.036562E-05, 3.472613E-05, -9.548651E-06, -1.706331E-05, 2.083130E-05, -7.486180E-06, -6.195203E-06, 1.087467E-05, -7.760912E-06, 2.388065E-06, 1.363413E-06, -2.856895E-06, 3.032904E-06, -2.484817E-06, 1.111600E-06, 9.909629E-07, 0.000000E+00, 0.000000E+00, 0.000000E+00, -1.321855E-06, -3.166944E-06, 2.199339E-07, 8.162876E-06, 8.758293E-06, -3.055073E-06, -9.618942E-06, 1.622915E-06, 8.397662E-06, -3.157634E-06, -6.034282E-06, 5.307164E-06, 2.098681E-06, -5.609614E-06, 2.287925E-06, 2.615108E-06, -4.009850E-06, 1.685577E-06, 1.415351E-06, -2.754622E-06, 1.880634E-06, 2.279947E-08, -1.429158E-06, 1.517252E-06, -5.095433E-07, -6.865028E-07, 1.193854E-06, 0.000000E+00, 0.000000E+00, 0.000000E+00, 0.000000E+00],
  [-8.243553E-06, -1.139000E-05, 1.392380E-05, 5.728372E-05, 4.844177E-05, -3.315205E-05, -6.122026E-05, 2.362900E-05, 5.108720E-05, -3.099339E-05, -2.952789E-05, 3.700472E-05, 1.567469E-06, -2.733895E-05, 1.815996E-05, 4.243298E-06, -1.550346E-05, 1.145659E-05, -1.334660E-06, -5.898520E-06, 7.339323E-06, -4.722141E-06, 1.009687E-06, 1.786774E-06, -2.950933E-06, 2.504126E-06, -8.476194E-07, -1.190561E-06, 0.000000E+00, 0.000000E+00, 0.000000E+00, 1.753163E-06, 1.857551E-06, -3.774287E-06, -1.092847E-05, -6.801346E-06, 7.247038E-06, 8.612034E-06, -5.663889E-06, -6.817212E-06, 6.187943E-06, 3.387136E-06, -6.404110E-06, 7.547794E-07, 4.480257E-06, -3.647354E-06, -6.221179E-07, 3.218678E-06, -2.343834E-06, -1.962319E-07, 1.880634E-06, -1.698043E-06, 3.490853E-07, 8.263474E-07, -9.932569E-07, 2.825089E-07, 5.376267E-07, -7.690496E-07, 0.000000E+00, 0.000000E+00, 0.000000E+00, 0.000000E+00],
  [4.163808E-06, 1.463393E-06, -4.707671E-06, -1.345018E-05, -1.493031E-05, 2.937697E-06, 1.378303E-05, -3.397694E-06, -9.783475E-06, 7.054534E-06, 2.977842E-06, -8.071135E-06, 4.773349E-06, 2.879971E-06, -7.273960E-06, 4.581357E-06, 1.550294E-06, -5.202838E-06, 4.364121E-06, -1.076587E-06, -1.865191E-06, 3.014000E-06, -2.405598E-06, 9.577258E-07, 2.523502E-07, -6.538122E-07, 4.259202E-07, -1.361454E-07, 0.000000E+00, 0.000000E+00, 0.000000E+00, -8.428198E-07, -2.177630E-07, 1.266560E-06, 2.649113E-06, 2.137841E-06, -1.040430E-06, -2.187850E-06, 9.006339E-07, 1.643569E-06, -1.272898E-06, -6.836021E-07, 1.385486E-06, -4.847380E-07, -6.889078E-07, 1.050435E-06, -4.703338E-07, -3.982026E-07, 8.031650E-07, -5.528759E-07, 2.279947E-08, 3.490853E-07, -4.260669E-07, 3.191379E-07, -1.640465E-07, 1.662215E-08, 1.094211E-07, -1.897536E-07, 0.000000E+00, 0.000000E+00, 0.000000E+00, 0.000000E+00],
  [3.850953E-06, 1.121417E-05, -8.064830E-06, -4.065183E-05, -2.734738E-05, 2.818040E-05, 3.730538E-05, -1.806872E-05, -3.094278E-05, 1.817420E-05, 1.937400E-05, -1.966397E-05, -6.028253E-06, 1.676859E-05, -5.209406E-06, -8.156692E-06, 9.425529E-06, -2.054035E-06, -4.522164E-06, 5.668032E-06, -2.779746E-06, -6.582722E-07, 2.479560E-06, -2.614070E-06, 1.970959E-06, -1.141615E-06, 1.090089E-07, 1.149512E-06, 0.000000E+00, 0.000000E+00, 0.000000E+00, -8.773299E-07, -1.916878E-06, 2.145364E-06, 7.640886E-06, 3.806957E-06, -5.734882E-06, -5.013316E-06, 4.292894E-06, 3.787121E-06, -4.006807E-06, -1.791958E-06, 3.640224E-06, -2.243233E-07, -2.578430E-06, 1.623977E-06, 8.950354E-07, -1.885729E-06, 8.187839E-07, 7.819269E-07, -1.429158E-06, 8.263474E-07, 3.191379E-07, -1.080220E-06, 9.824812E-07, -2.252382E-07, -5.684981E-07, 8.411974E-07, 0.000000E+00, 0.000000E+00, 0.000000E+00, 0.000000E+00],
  [-9.507339E-06, -2.067529E-05, 3.815139E-06, 5.349220E-05, 5.411598E-05, -1.718717E-05, -5.503921E-05, 7.248224E-06, 4.391267E-05, -1.375254E-05, -2.803909E-05, 2.110860E-05, 8.873171E-06, -1.954508E-05, 6.872255E-06, 8.220395E-06, -1.107071E-05, 3.754074E-06, 3.875568E-06, -5.847529E-06, 3.273424E-06, -6.578930E-08, -1.609779E-06, 1.992187E-06, -1.917270E-06, 1.550063E-06, -6.284735E-07, -7.533053E-07, 0.000000E+00, 0.000000E+00, 0.000000E+00, 2.145109E-06, 3.883962E-06, -1.647084E-06, -1.051260E-05, -8.219540E-06, 4.991691E-06, 8.415986E-06, -3.296679E-06, -6.452267E-06, 3.814260E-06, 3.671902E-06, -4.259901E-06, -5.658883E-07, 3.352462E-06, -1.770642E-06, -1.127462E-06, 2.198640E-06, -1.059506E-06, -7.042442E-07, 1.517252E-06, -9.932569E-07, -1.640465E-07, 9.824812E-07, -9.620030E-07, 2.844958E-07, 4.662257E-07, -7.644194E-07, 0.000000E+00, 0.000000E+00, 0.000000E+00, 0.000000E+00],
  [7.907249E-06, 1.827612E-05, 1.287783E-05, -1.363666E-05, -4.010243E-05, -2.303248E-05, 2.601084E-05, 2.296770E-05, -2.116101E-05, -1.182037E-05, 1.789432E-05, -6.802074E-07, -1.038762E-05, 7.453320E-06, 6.382120E-07, -5.448518E-06, 4.497361E-06, -4.339639E-07, -2.473037E-06, 2.407579E-06, -7.902620E-07, -3.111039E-07, 3.824952E-07, -1.804928E-07, 3.216789E-07, -6.756023E-07, 7.953931E-07, -4.855048E-07, 0.000000E+00, 0.000000E+00, 0.000000E+00, -1.851166E-06, -3.881858E-06, -2.157553E-06, 3.405237E-06, 6.878111E-06, 2.184305E-06, -5.171450E-06, -2.576049E-06, 4.285168E-06, 1.110448E-06, -3.445123E-06, 6.497519E-07, 1.939041E-06, -1.548256E-06, -1.555318E-07, 1.062283E-06, -7.991125E-07, 7.561495E-08, 4.335469E-07, -5.095433E-07, 2.825089E-07, 1.662215E-08, -2.252382E-07, 2.844958E-07, -2.033783E-07, 3.279337E-08, 1.380697E-07, 0.000000E+00, 0.000000E+00, 0.000000E+00, 0.000000E+00],
  [1.736409E-07, -1.367310E-06, -1.969619E-05, -4.256754E-05, -1.325285E-05, 4.563356E-05, 2.826206E-05, -3.527944E-05, -1.976662E-05, 2.810862E-05, 5.495822E-06, -1.930092E-05, 5.055010E-06, 8.430939E-06, -7.560204E-06, -1.481127E-08, 4.220085E-06, -2.913923E-06, -2.856983E-07, 1.895342E-06, -1.403141E-06, 1.557816E-07, 7.255288E-07, -1.017953E-06, 8.772586E-07, -3.794785E-07, -4.079497E-07, 1.200260E-06, 0.000000E+00, 0.000000E+00, 0.000000E+00, 3.550007E-08, 8.364554E-07, 4.457466E-06, 7.435492E-06, 1.076631E-06, -7.988595E-06, -3.035630E-06, 6.709978E-06, 1.707974E-06, -5.397469E-06, 4.381450E-07, 3.511278E-06, -1.884485E-06, -1.273869E-06, 1.923574E-06, -3.886501E-07, -9.825084E-07, 9.369433E-07, 6.046572E-09, -6.865028E-07, 5.376267E-07, 1.094211E-07, -5.684981E-07, 4.662257E-07, 3.279337E-08, -4.747927E-07, 5.190490E-07, 0.000000E+00, 0.000000E+00, 0.000000E+00, 0.000000E+00],
  [-8.492359E-06, -2.061406E-05, 2.482233E-06, 6.290433E-05, 6.711482E-05, -2.154874E-05, -6.403336E-05, 1.101501E-05, 4.662225E-05, -1.650540E-05, -2.601805E-05, 2.092094E-05, 6.176952E-06, -1.662619E-05, 6.558240E-06, 6.217963E-06, -8.667414E-06, 2.431058E-06, 3.546297E-06, -4.183433E-06, 1.326180E-06, 1.026962E-06, -1.388401E-06, 8.433269E-07, -5.967069E-07, 6.205385E-07, -2.538399E-07, -6.917472E-07, 0.000000E+00, 0.000000E+00, 0.000000E+00, 1.977057E-06, 3.803828E-06, -1.627403E-06, -1.220921E-05, -1.025150E-05, 6.055202E-06, 1.002299E-05, -4.309109E-06, -7.143524E-06, 4.631318E-06, 3.529188E-06, -4.531645E-06, -1.321387E-07, 3.024759E-06, -1.833621E-06, -7.277423E-07, 1.817375E-06, -9.764121E-07, -4.879138E-07, 1.193854E-06, -7.690496E-07, -1.897536E-07, 8.411974E-07, -7.644194E-07, 1.380697E-07, 5.190490E-07, -7.525646E-07, 0.000000E+00, 0.000000E+00, 0.000000E+00, 0.000000E+00],
  [0.000000E+00, 0.000000E+00, 0.000000E+00, 0.000000E+00, 0.000000E+00, 0.000000E+00, 0.000000E+00, 0.000000E+00, 0.000000E+00, 0.000000E+00, 0.000000E+00, 0.000000E+00, 0.000000E+00, 0.000000E+00, 0.000000E+00, 0.000000E+00, 0.000000E+00, 0.000000E+00, 0.000000E+00, 0.000000E+00, 0.000000E+00, 0.000000E+00, 0.000000E+00, 0.000000E+00, 0.000000E+00, 0.000000E+00, 0.000000E+00, 0.000000E+00, 0.000000E+00, 0.000000E+00, 0.000000E+00, 0.000000E+00, 0.000000E+00, 0.000000E+00, 0.000000E+00, 0.000000E+00, 0.000000E+00, 0.000000E+00, 0.000000E+00, 0.000000E+00, 0.000000E+00, 0.000000E+00, 0.000000E+00, 0.000000E+00, 0.000000E+00, 0.000000E+00, 0.000000E+00, 0.000000E+00, 0.000000E+00, 0.000000E+00, 0.000000E+00, 0.000000E+00, 0.000000E+00, 0.000000E+00, 0.000000E+00, 0.000000E+00, 0.000000E+00, 0.000000E+00, 0.000000E+00, 0.000000E+00, 0.000000E+00, 0.000000E+00],
  [0.000000E+00, 0.000000E+00, 0.000000E+00, 0.000000E+00, 0.000000E+00, 0.000000E+00, 0.000000E+00, 0.000000E+00, 0.000000E+00, 0.000000E+00, 0.000000E+00, 0.000000E+00, 0.000000E+00, 0.000000E+00, 0.000000E+00, 0.000000E+00, 0.000000E+00, 0.000000E+00, 0.000000E+00, 0.000000E+00, 0.000000E+00, 0.000000E+00, 0.000000E+00, 0.000000E+00, 0.000000E+00, 0.000000E+00, 0.000000E+00, 0.000000E+00, 0.000000E+00, 0.000000E+00, 0.000000E+00, 0.000000E+00, 0.000000E+00, 0.000000E+00, 0.000000E+00, 0.000000E+00, 0.000000E+00, 0.000000E+00, 0.000000E+00, 0.000000E+00, 0.000000E+00, 0.000000E+00, 0.000000E+00, 0.000000E+00, 0.000000E+00, 0.000000E+00, 0.000000E+00, 0.000000E+00, 0.000000E+00, 0.000000E+00, 0.000000E+00, 0.000000E+00, 0.000000E+00, 0.000000E+00, 0.000000E+00, 0.000000E+00, 0.000000E+00, 0.000000E+00, 0.000000E+00, 0.000000E+00, 0.000000E+00, 0.000000E+00],
  [0.000000E+00, 0.000000E+00, 0.000000E+00, 0.000000E+00, 0.000000E+00, 0.000000E+00, 0.000000E+00, 0.000000E+00, 0.000000E+00, 0.000000E+00, 0.000000E+00, 0.000000E+00, 0.000000E+00, 0.000000E+00, 0.000000E+00, 0.000000E+00, 0.000000E+00, 0.000000E+00, 0.000000E+00, 0.000000E+00, 0.000000E+00, 0.000000E+00, 0.000000E+00, 0.000000E+00, 0.000000E+00, 0.000000E+00, 0.000000E+00, 0.000000E+00, 0.000000E+00, 0.000000E+00, 0.000000E+00, 0.000000E+00, 0.000000E+00, 0.000000E+00, 0.000000E+00, 0.000000E+00, 0.000000E+00, 0.000000E+00, 0.000000E+00, 0.000000E+00, 0.000000E+00, 0.000000E+00, 0.000000E+00, 0.000000E+00, 0.000000E+00, 0.000000E+00, 0.000000E+00, 0.000000E+00, 0.000000E+00, 0.000000E+00, 0.000000E+00, 0.000000E+00, 0.000000E+00, 0.000000E+00, 0.000000E+00, 0.000000E+00, 0.000000E+00, 0.000000E+00, 0.000000E+00, 0.000000E+00, 0.000000E+00, 0.000000E+00],
  [0.000000E+00, 0.000000E+00, 0.000000E+00, 0.000000E+00, 0.000000E+00, 0.000000E+00, 0.000000E+00, 0.000000E+00, 0.000000E+00, 0.000000E+00, 0.000000E+00, 0.000000E+00, 0.000000E+00, 0.000000E+00, 0.000000E+00, 0.000000E+00, 0.000000E+00, 0.000000E+00, 0.000000E+00, 0.000000E+00, 0.000000E+00, 0.000000E+00, 0.000000E+00, 0.000000E+00, 0.000000E+00, 0.000000E+00, 0.000000E+00, 0.000000E+00, 0.000000E+00, 0.000000E+00, 0.000000E+00, 0.000000E+00, 0.000000E+00, 0.000000E+00, 0.000000E+00, 0.000000E+00, 0.000000E+00, 0.000000E+00, 0.000000E+00, 0.000000E+00, 0.000000E+00, 0.000000E+00, 0.000000E+00, 0.000000E+00, 0.000000E+00, 0.000000E+00, 0.000000E+00, 0.000000E+00, 0.000000E+00, 0.000000E+00, 0.000000E+00, 0.000000E+00, 0.000000E+00, 0.000000E+00, 0.000000E+00, 0.000000E+00, 0.000000E+00, 0.000000E+00, 0.000000E+00, 0.000000E+00, 0.000000E+00, 0.000000E+00]]

/-- `Daejeon16_public_v2.f90` 819-882. -/
def coup3hj : List (List Num) := coup3hj_1 ++ coup3hj_2 ++ coup3hj_3 ++ coup3hj_4

end Verif.Daejeon
