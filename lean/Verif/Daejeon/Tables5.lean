import Verif.Daejeon.Number

/-!
# Tables of Daejeon16: coup3dg

The `data` statements of `contrib/Daejeon16/Daejeon16_public_v2.f90`, line by line; a line of the source is a row here.
-/

namespace Verif.Daejeon

/-- `Daejeon16_public_v2.f90` 628-643. -/
def coup3dg_1 : List (List Num) := [
  [-2.954487E-01, -5.489612E-01, -4.725699E-01, -2.607526E-01, -1.278794E-01, -5.226836E-02, 9.210795E-03, 2.348757E-02, 1.006477E-03, -7.735577E-03, 2.617702E-04, 2.340516E-03, -5.923983E-04, -5.307849E-04, 3.404157E-04, 3.368481E-05, -1.107182E-04, 3.335068E-05, 2.106308E-05, -1.912269E-05, -3.686142E-06, 1.622612E-05, -9.794021E-06, -7.736374E-06, 2.106990E-05, -1.766273E-05, -2.303977E-06, 2.333720E-05, -2.545176E-05, 2.723484E-06, 0.000000E+00, -2.314180E+00, -1.511051E+00, -3.576604E-01, 1.257670E-01, 8.438230E-02, -1.617896E-02, -1.806954E-02, 4.309507E-03, 3.871286E-03, -1.611236E-03, -7.051299E-04, 5.705275E-04, 7.769181E-05, -1.864934E-04, -3.865434E-06, 1.026879E-04, -4.081207E-05, -5.863296E-05, 8.810634E-05, -3.709454E-05, -3.509037E-05, 6.696695E-05, -4.387568E-05, -1.699190E-06, 2.773039E-05, -2.005224E-05, -1.621505E-06, 8.528267E-06, 8.207534E-06, 0.000000E+00, 0.000000E+00],
  [-5.489612E-01, -9.955810E-01, -1.140262E+00, -9.765870E-01, -6.958553E-01, -3.559901E-01, -2.574761E-02, 1.092147E-01, 3.895563E-02, -3.170775E-02, -1.305756E-02, 1.143504E-02, 2.352823E-03, -4.197062E-03, 4.343337E-04, 1.210262E-03, -6.166243E-04, -1.367082E-04, 3.025870E-04, -1.398056E-04, -4.040000E-05, 1.292463E-04, -1.138541E-04, 1.143493E-05, 1.149162E-04, -1.624491E-04, 6.424830E-05, 1.263515E-04, -2.458517E-04, 1.534264E-04, 0.000000E+00, -1.234724E+00, -2.214587E+00, -1.348016E+00, -1.274668E-01, 2.635519E-01, 7.304047E-02, -6.081095E-02, -1.906137E-02, 1.807167E-02, 3.168194E-03, -5.954617E-03, 3.671274E-04, 1.822525E-03, -6.959868E-04, -3.985842E-04, 4.178399E-04, -1.228484E-05, -1.953451E-04, 1.148853E-04, 6.646982E-05, -1.622413E-04, 1.018311E-04, 5.614540E-05, -1.782594E-04, 1.594210E-04, -9.469709E-06, -1.509785E-04, 1.891877E-04, -7.237486E-05, 0.000000E+00, 0.000000E+00],
  [-4.725699E-01, -1.140262E+00, -1.783432E+00, -2.127637E+00, -1.983564E+00, -1.282157E+00, -3.271146E-01, 2.486638E-01, 1.970164E-01, -4.470396E-02, -6.971440E-02, 1.696162E-02, 2.146329E-02, -9.695289E-03, -4.738999E-03, 4.729820E-03, -1.742102E-04, -1.512327E-03, 8.366293E-04, -8.655598E-06, -2.838819E-04, 3.109358E-04, -2.727344E-04, 1.039478E-04, 2.353670E-04, -5.318717E-04, 4.351503E-04, 1.555245E-04, -8.314946E-04, 9.178979E-04, 0.000000E+00, -3.844784E-01, -1.236035E+00, -1.663579E+00, -7.687543E-01, 1.843779E-01, 2.740566E-01, -2.256862E-02, -8.578635E-02, 1.160653E-02, 2.657594E-02, -8.687457E-03, -7.018496E-03, 5.007669E-03, 8.619262E-04, -2.123679E-03, 5.104009E-04, 6.173773E-04, -5.117371E-04, -1.212009E-05, 3.013652E-04, -2.701818E-04, 6.414855E-05, 1.780232E-04, -3.284902E-04, 2.705135E-04, 5.210283E-06, -3.307348E-04, 4.505792E-04, -2.301104E-04, 0.000000E+00, 0.000000E+00],
  [-2.607526E-01, -9.765870E-01, -2.127637E+00, -3.285213E+00, -3.737867E+00, -2.945198E+00, -1.220809E+00, 2.251755E-01, 5.044602E-01, 5.962338E-02, -1.639698E-01, -2.518666E-02, 5.798796E-02, 2.577611E-04, -1.999931E-02, 5.470510E-03, 4.989624E-03, -3.779810E-03, 4.596259E-06, 1.181561E-03, -5.697347E-04, 8.454756E-07, -4.838456E-05, 2.849026E-04, -9.892609E-05, -6.065094E-04, 1.138499E-03, -5.968711E-04, -1.003354E-03, 2.306111E-03, 0.000000E+00, 6.762266E-04, -2.499751E-01, -7.602928E-01, -8.754258E-01, -2.047551E-01, 2.863120E-01, 1.305677E-01, -9.931325E-02, -4.509342E-02, 4.201681E-02, 9.268408E-03, -1.809187E-02, 1.732458E-03, 6.426692E-03, -3.115744E-03, -1.273288E-03, 1.836870E-03, -3.608123E-04, -5.682033E-04, 4.445178E-04, -3.522358E-05, -1.041078E-04, 5.046355E-05, -7.102179E-05, 1.800608E-04, -1.615362E-04, -1.020374E-04, 4.229031E-04, -4.561973E-04, 0.000000E+00, 0.000000E+00],
  [-1.278794E-01, -6.958553E-01, -1.983564E+00, -3.737867E+00, -5.006962E+00, -4.695090E+00, -2.676714E+00, -3.149156E-01, 7.389340E-01, 3.638431E-01, -1.785801E-01, -1.425721E-01, 6.395567E-02, 4.372964E-02, -3.014350E-02, -8.096619E-03, 1.304636E-02, -1.846714E-03, -3.792092E-03, 2.450412E-03, 5.329504E-05, -1.072748E-03, 7.768529E-04, 2.230400E-04, -1.061704E-03, 6.479129E-04, 1.052294E-03, -2.267947E-03, 1.024195E-03, 2.255190E-03, 0.000000E+00, 7.348871E-02, 1.684318E-01, 9.811432E-02, -1.906331E-01, -2.898163E-01, 1.897518E-02, 1.708464E-01, 4.155805E-03, -7.828498E-02, 7.383326E-03, 3.211235E-02, -1.135340E-02, -1.001626E-02, 8.429143E-03, 8.482077E-04, -3.997609E-03, 1.515322E-03, 1.035417E-03, -1.218030E-03, 1.030389E-04, 6.040808E-04, -3.658074E-04, -2.472577E-04, 4.773328E-04, -1.199024E-04, -4.004343E-04, 5.158638E-04, -7.258513E-05, -5.269372E-04, 0.000000E+00, 0.000000E+00],
  [-5.226836E-02, -3.559901E-01, -1.282157E+00, -2.945198E+00, -4.695090E+00, -5.282845E+00, -3.931549E+00, -1.392619E+00, 4.927403E-01, 6.976712E-01, 3.111885E-02, -2.407852E-01, -2.342339E-02, 8.704066E-02, -2.903388E-03, -3.066939E-02, 9.302655E-03, 7.804156E-03, -6.160597E-03, 1.594818E-04, 1.602262E-03, -1.051449E-03, 9.975182E-04, -7.204365E-04, -9.873639E-04, 2.598051E-03, -1.412289E-03, -2.347327E-03, 4.663554E-03, -1.956968E-03, 0.000000E+00, 3.304103E-02, 1.499205E-01, 3.126473E-01, 3.148406E-01, 7.114967E-02, -1.049090E-01, 1.896177E-03, 6.789810E-02, -1.462080E-02, -3.321697E-02, 1.602463E-02, 1.091905E-02, -1.144227E-02, -3.538222E-04, 5.404760E-03, -2.514354E-03, -1.161009E-03, 1.876509E-03, -6.172663E-04, -5.642791E-04, 7.951240E-04, -3.081579E-04, -3.106003E-04, 5.824924E-04, -3.332676E-04, -2.294323E-04, 6.400146E-04, -5.225550E-04, -8.025881E-05, 0.000000E+00, 0.000000E+00],
  [9.210795E-03, -2.574761E-02, -3.271146E-01, -1.220809E+00, -2.676714E+00, -3.931549E+00, -3.914321E+00, -2.349512E+00, -3.297151E-01, 6.647885E-01, 3.783948E-01, -1.472388E-01, -1.559711E-01, 5.119510E-02, 5.305269E-02, -2.724409E-02, -1.318100E-02, 1.378893E-02, 2.885548E-04, -5.126525E-03, 1.440778E-03, 1.745270E-03, -6.103209E-04, -2.020808E-03, 1.713690E-03, 1.988407E-03, -4.601971E-03, 1.830487E-03, 4.591557E-03, -7.632681E-03, 0.000000E+00, -2.814626E-03, 2.052686E-02, 1.174723E-01, 2.502851E-01, 2.472519E-01, 5.099286E-02, -8.677676E-02, -9.959514E-03, 4.339876E-02, -8.008806E-03, -1.852255E-02, 1.059082E-02, 4.336799E-03, -6.791081E-03, 1.314843E-03, 2.378552E-03, -1.879541E-03, 7.785891E-06, 8.033073E-04, -4.497232E-04, -7.123404E-05, 1.697846E-04, -8.374810E-07, -5.900504E-05, -8.079899E-05, 2.005187E-04, -9.062078E-05, -1.898575E-04, 3.658349E-04, 0.000000E+00, 0.000000E+00],
  [2.348757E-02, 1.092147E-01, 2.486638E-01, 2.251755E-01, -3.149156E-01, -1.392619E+00, -2.349512E+00, -2.308108E+00, -1.164487E+00, 1.105986E-01, 5.076505E-01, 1.322576E-01, -1.653238E-01, -6.413182E-02, 6.312502E-02, 1.695464E-02, -2.673737E-02, 9.023786E-04, 9.673541E-03, -4.549897E-03, -1.514629E-03, 3.417189E-03, -2.065725E-03, -1.234056E-03, 3.789318E-03, -2.147307E-03, -3.174345E-03, 6.292971E-03, -2.190950E-03, -6.217150E-03, 0.000000E+00, -8.732015E-03, -3.270030E-02, -5.133783E-02, -1.027275E-02, 8.468512E-02, 1.114855E-01, 1.286095E-02, -5.437677E-02, 2.701940E-03, 2.827960E-02, -1.019242E-02, -1.088611E-02, 9.137479E-03, 1.300902E-03, -4.822731E-03, 1.845700E-03, 1.175854E-03, -1.551855E-03, 4.575256E-04, 4.511469E-04, -6.170056E-04, 2.681002E-04, 1.934411E-04, -4.400420E-04, 3.057593E-04, 1.147836E-04, -4.831805E-04, 4.603739E-04, -1.168757E-05, 0.000000E+00, 0.000000E+00],
  [1.006477E-03, 3.895563E-02, 1.970164E-01, 5.044602E-01, 7.389340E-01, 4.927403E-01, -3.297151E-01, -1.164487E+00, -1.253466E+00, -5.363478E-01, 2.087578E-01, 3.169303E-01, 9.027515E-03, -1.242311E-01, -9.958231E-03, 4.824625E-02, -2.512632E-03, -1.745593E-02, 5.250599E-03, 4.476518E-03, -2.524591E-03, -7.908663E-04, -4.312973E-04, 2.093032E-03, 3.968904E-04, -4.348850E-03, 3.383053E-03, 3.164112E-03, -7.853455E-03, 3.748227E-03, 0.000000E+00, -1.545779E-03, -1.380899E-02, -4.850581E-02, -8.675126E-02, -7.146765E-02, 7.594197E-03, 5.519576E-02, 9.925546E-03, -2.952968E-02, 3.952731E-03, 1.532704E-02, -8.608616E-03, -4.798775E-03, 6.657052E-03, -6.831367E-04, -2.902640E-03, 1.812736E-03, 3.746002E-04, -1.007181E-03, 3.554799E-04, 2.465893E-04, -2.155157E-04, -8.906826E-05, 1.448228E-04, 1.063754E-04, -3.056502E-04, 1.559643E-04, 2.360340E-04, -4.770444E-04, 0.000000E+00, 0.000000E+00],
  [-7.735577E-03, -3.170775E-02, -4.470396E-02, 5.962338E-02, 3.638431E-01, 6.976712E-01, 6.647885E-01, 1.105986E-01, -5.363478E-01, -6.666872E-01, -2.351546E-01, 1.842313E-01, 1.755594E-01, -3.603986E-02, -7.734501E-02, 1.358383E-02, 2.986311E-02, -1.048537E-02, -9.440638E-03, 7.643538E-03, 1.238314E-03, -4.994411E-03, 2.109538E-03, 3.124229E-03, -4.565860E-03, -2.173111E-04, 6.051634E-03, -5.133622E-03, -3.016416E-03, 9.445501E-03, 0.000000E+00, 2.280087E-03, 7.468950E-03, 8.145201E-03, -1.143803E-02, -4.494754E-02, -4.823286E-02, -2.454670E-03, 3.118298E-02, 5.524534E-03, -1.785255E-02, 3.601530E-03, 8.605165E-03, -6.318635E-03, -1.724778E-03, 4.344062E-03, -1.432742E-03, -1.401606E-03, 1.576464E-03, -3.364995E-04, -5.791343E-04, 6.619105E-04, -2.361455E-04, -2.504804E-04, 4.716055E-04, -2.902448E-04, -1.504113E-04, 4.838617E-04, -4.080673E-04, -3.665348E-05, 0.000000E+00, 0.000000E+00],
  [2.617702E-04, -1.305756E-02, -6.971440E-02, -1.639698E-01, -1.785801E-01, 3.111885E-02, 3.783948E-01, 5.076505E-01, 2.087578E-01, -2.351546E-01, -3.546179E-01, -9.999698E-02, 1.311813E-01, 8.841623E-02, -4.204728E-02, -4.136091E-02, 1.823257E-02, 1.455536E-02, -9.367049E-03, -2.757483E-03, 3.222563E-03, -4.907952E-04, 1.114389E-03, -1.074980E-03, -2.417856E-03, 4.502124E-03, -3.870054E-04, -6.044609E-03, 6.141577E-03, 1.883460E-03, 0.000000E+00, 6.861865E-04, 4.938250E-03, 1.630765E-02, 2.841536E-02, 2.198900E-02, -7.019348E-03, -2.490395E-02, -5.695019E-03, 1.596834E-02, 3.043560E-03, -1.019593E-02, 2.889651E-03, 4.587249E-03, -4.318302E-03, -3.100314E-04, 2.636221E-03, -1.304875E-03, -6.489753E-04, 1.014209E-03, -2.258484E-04, -3.605340E-04, 2.423355E-04, 1.205311E-04, -1.810966E-04, -7.899035E-05, 2.806780E-04, -1.536383E-04, -1.830767E-04, 3.867216E-04, 0.000000E+00, 0.000000E+00],
  [2.340516E-03, 1.143504E-02, 1.696162E-02, -2.518666E-02, -1.425721E-01, -2.407852E-01, -1.472388E-01, 1.322576E-01, 3.169303E-01, 1.842313E-01, -9.999698E-02, -1.921995E-01, -4.248579E-02, 8.480997E-02, 4.156390E-02, -3.452760E-02, -2.010523E-02, 1.664533E-02, 6.771752E-03, -9.121862E-03, -9.141004E-04, 5.543835E-03, -1.539009E-03, -3.996399E-03, 3.721338E-03, 2.166848E-03, -6.008889E-03, 2.061017E-03, 5.561826E-03, -7.335624E-03, 0.000000E+00, -7.662181E-04, -2.469526E-03, -2.751327E-03, 4.011043E-03, 1.651958E-02, 1.907651E-02, 2.197100E-03, -1.346849E-02, -5.137437E-03, 8.677809E-03, 1.864802E-03, -5.928961E-03, 2.042250E-03, 2.361987E-03, -2.759958E-03, 3.572793E-04, 1.376432E-03, -1.133126E-03, 4.874744E-05, 5.903397E-04, -5.291038E-04, 1.273254E-04, 2.464427E-04, -3.796411E-04, 2.157321E-04, 1.145847E-04, -3.508503E-04, 3.008487E-04, -5.377277E-06, 0.000000E+00, 0.000000E+00],
  [-5.923983E-04, 2.352823E-03, 2.146329E-02, 5.798796E-02, 6.395567E-02, -2.342339E-02, -1.559711E-01, -1.653238E-01, 9.027515E-03, 1.755594E-01, 1.311813E-01, -4.248579E-02, -1.064041E-01, -1.765121E-02, 5.175129E-02, 1.741564E-02, -2.346996E-02, -7.213860E-03, 1.068637E-02, 6.568385E-04, -3.547043E-03, 1.367835E-03, -9.867328E-04, -1.082421E-05, 2.951837E-03, -3.167388E-03, -1.550748E-03, 5.635245E-03, -2.952515E-03, -4.163326E-03, 0.000000E+00, -1.651048E-04, -1.488627E-03, -5.369858E-03, -1.021691E-02, -9.121026E-03, 1.272363E-03, 9.881131E-03, 4.151397E-03, -6.394624E-03, -3.682781E-03, 4.620999E-03, 1.129169E-03, -3.469406E-03, 1.398247E-03, 1.277554E-03, -1.772420E-03, 3.853231E-04, 8.343944E-04, -7.589184E-04, -1.313011E-05, 4.341738E-04, -2.278304E-04, -1.451220E-04, 2.233378E-04, -2.914881E-06, -2.057372E-04, 1.736811E-04, 4.626590E-05, -2.315707E-04, 0.000000E+00, 0.000000E+00],
  [-5.307849E-04, -4.197062E-03, -9.695289E-03, 2.577611E-04, 4.372964E-02, 8.704066E-02, 5.119510E-02, -6.413182E-02, -1.242311E-01, -3.603986E-02, 8.841623E-02, 8.480997E-02, -1.765121E-02, -6.025710E-02, -7.665171E-03, 3.142978E-02, 7.413043E-03, -1.591040E-02, -3.025260E-03, 8.563202E-03, 2.682272E-04, -5.200821E-03, 1.143657E-03, 3.851512E-03, -2.653206E-03, -2.658196E-03, 4.551298E-03, -1.316557E-04, -5.042090E-03, 4.200329E-03, 0.000000E+00, 3.109324E-04, 1.125744E-03, 1.777797E-03, -1.484487E-05, -4.871462E-03, -7.522321E-03, -2.491588E-03, 4.722681E-03, 3.534471E-03, -2.969846E-03, -2.479846E-03, 2.462276E-03, 7.332629E-04, -1.981386E-03, 8.737783E-04, 5.903070E-04, -9.892179E-04, 4.067868E-04, 2.552530E-04, -4.366129E-04, 2.432455E-04, 1.081020E-05, -1.676069E-04, 2.022265E-04, -1.198377E-04, -3.726226E-05, 1.705366E-04, -1.846741E-04, 6.718203E-05, 0.000000E+00, 0.000000E+00],
  [3.404157E-04, 4.343337E-04, -4.738999E-03, -1.999931E-02, -3.014350E-02, -2.903388E-03, 5.305269E-02, 6.312502E-02, -9.958231E-03, -7.734501E-02, -4.204728E-02, 4.156390E-02, 5.175129E-02, -7.665171E-03, -3.382092E-02, -2.279378E-03, 1.785340E-02, 1.466769E-03, -8.521618E-03, 7.716711E-04, 2.967497E-03, -1.576471E-03, 6.121692E-04, 5.349358E-04, -2.394676E-03, 1.788974E-03, 1.848761E-03, -3.884679E-03, 9.977003E-04, 3.614392E-03, 0.000000E+00, -2.457503E-05, 2.663047E-04, 1.524138E-03, 3.707910E-03, 4.391841E-03, 1.052727E-03, -3.368028E-03, -2.763215E-03, 1.752676E-03, 2.422393E-03, -1.256366E-03, -1.575410E-03, 1.334804E-03, 4.525570E-04, -1.205968E-03, 6.142419E-04, 3.313813E-04, -6.991831E-04, 3.306866E-04, 2.208336E-04, -3.917035E-04, 1.447808E-04, 1.591000E-04, -2.229318E-04, 5.895346E-05, 1.251747E-04, -1.648663E-04, 5.614700E-05, 9.066852E-05, 0.000000E+00, 0.000000E+00],
  [3.368481E-05, 1.210262E-03, 4.729820E-03, 5.470510E-03, -8.096619E-03, -3.066939E-02, -2.724409E-02, 1.695464E-02, 4.824625E-02, 1.358383E-02, -4.136091E-02, -3.452760E-02, 1.741564E-02, 3.142978E-02, -2.279378E-03, -1.995092E-02, -1.434064E-03, 1.139358E-02, 9.021855E-04, -6.643040E-03, 1.179723E-04, 4.280126E-03, -9.384939E-04, -3.171337E-03, 1.943344E-03, 2.198634E-03, -3.157551E-03, -3.329377E-04, 3.535455E-03, -2.295839E-03, 0.000000E+00, -1.185310E-04, -5.205236E-04, -1.080151E-03, -9.582723E-04, 7.043032E-04, 2.626230E-03, 1.891348E-03, -1.100704E-03, -1.930971E-03, 4.664962E-04, 1.502453E-03, -4.535206E-04, -9.980348E-04, 6.812310E-04, 3.394955E-04, -6.892745E-04, 3.109961E-04, 1.731624E-04, -3.201424E-04, 1.572867E-04, 3.706967E-05, -9.352068E-05, 5.547823E-05, -2.479202E-05, 2.499700E-05, -1.696494E-05, -2.222460E-05, 6.765089E-05, -7.504721E-05, 0.000000E+00, 0.000000E+00]]

/-- `Daejeon16_public_v2.f90` 644-659. -/
def coup3dg_2 : List (List Num) := [
  [-1.107182E-04, -6.166243E-04, -1.742102E-04, 4.989624E-03, 1.304636E-02, 9.302655E-03, -1.318100E-02, -2.673737E-02, -2.512632E-03, 2.986311E-02, 1.823257E-02, -2.010523E-02, -2.346996E-02, 7.413043E-03, 1.785340E-02, -1.434064E-03, -1.055727E-02, 4.846575E-04, 5.345171E-03, -9.890607E-04, -1.951262E-03, 1.183647E-03, -3.179084E-04, -4.945240E-04, 1.522679E-03, -9.419834E-04, -1.317929E-03, 2.290222E-03, -3.051672E-04, -2.294840E-03, 0.000000E+00, 7.675193E-05, 1.338834E-04, -1.810400E-04, -1.112226E-03, -1.942303E-03, -1.254257E-03, 7.360262E-04, 1.471748E-03, -5.535146E-05, -1.142711E-03, -3.885605E-05, 8.641816E-04, -1.203385E-04, -5.923116E-04, 3.670625E-04, 1.827810E-04, -4.118696E-04, 2.579617E-04, 4.358621E-05, -2.370292E-04, 2.034862E-04, -2.280842E-05, -1.283761E-04, 1.442540E-04, -5.166269E-05, -5.535861E-05, 1.036207E-04, -7.590582E-05, 4.565041E-07, 0.000000E+00, 0.000000E+00],
  [3.335068E-05, -1.367082E-04, -1.512327E-03, -3.779810E-03, -1.846714E-03, 7.804156E-03, 1.378893E-02, 9.023786E-04, -1.745593E-02, -1.048537E-02, 1.455536E-02, 1.664533E-02, -7.213860E-03, -1.591040E-02, 1.466769E-03, 1.139358E-02, 4.846575E-04, -7.306776E-03, -4.250607E-04, 4.717649E-03, -1.406350E-04, -3.274010E-03, 7.795279E-04, 2.408654E-03, -1.519462E-03, -1.521635E-03, 2.215176E-03, 1.554586E-04, -2.247838E-03, 1.459230E-03, 0.000000E+00, 1.395768E-06, 1.280727E-04, 4.817203E-04, 8.085333E-04, 4.716341E-04, -5.599933E-04, -1.022729E-03, -1.102539E-04, 7.797635E-04, 2.458771E-04, -5.745920E-04, -1.813332E-04, 4.717556E-04, 2.669222E-05, -3.813023E-04, 1.847241E-04, 1.677514E-04, -2.762734E-04, 1.229741E-04, 7.893980E-05, -1.477498E-04, 7.142468E-05, 3.615689E-05, -7.262723E-05, 2.978468E-05, 3.092438E-05, -4.983861E-05, 1.571422E-05, 3.582637E-05, 0.000000E+00, 0.000000E+00],
  [2.106308E-05, 3.025870E-04, 8.366293E-04, 4.596259E-06, -3.792092E-03, -6.160597E-03, 2.885548E-04, 9.673541E-03, 5.250599E-03, -9.440638E-03, -9.367049E-03, 6.771752E-03, 1.068637E-02, -3.025260E-03, -8.521618E-03, 9.021855E-04, 5.345171E-03, -4.250607E-04, -2.802054E-03, 5.489623E-04, 1.050842E-03, -5.743363E-04, 1.259589E-04, 2.108582E-04, -7.523148E-04, 5.119431E-04, 6.533827E-04, -1.182885E-03, 1.706843E-04, 1.159512E-03, 0.000000E+00, -4.359525E-05, -1.499172E-04, -1.802583E-04, 8.677952E-05, 5.987089E-04, 7.630579E-04, 1.207064E-04, -5.806885E-04, -2.994103E-04, 3.776706E-04, 2.506069E-04, -2.770455E-04, -1.661420E-04, 2.383850E-04, 5.949489E-05, -2.071303E-04, 7.688205E-05, 9.081620E-05, -1.327875E-04, 7.372570E-05, 3.912943E-06, -4.840323E-05, 5.071696E-05, -2.978362E-05, 7.439192E-06, 9.983514E-06, -2.577191E-05, 3.565594E-05, -2.703907E-05, 0.000000E+00, 0.000000E+00],
  [-1.912269E-05, -1.398056E-04, -8.655598E-06, 1.181561E-03, 2.450412E-03, 1.594818E-04, -5.126525E-03, -4.549897E-03, 4.476518E-03, 7.643538E-03, -2.757483E-03, -9.121862E-03, 6.568385E-04, 8.563202E-03, 7.716711E-04, -6.643040E-03, -9.890607E-04, 4.717649E-03, 5.489623E-04, -3.342089E-03, 4.136766E-05, 2.451844E-03, -6.366337E-04, -1.773548E-03, 1.223348E-03, 9.796974E-04, -1.615976E-03, 8.551277E-05, 1.413916E-03, -1.097291E-03, 0.000000E+00, 4.671689E-05, 8.093406E-05, -6.781628E-05, -3.871275E-04, -5.254672E-04, -1.791963E-04, 3.472088E-04, 3.474274E-04, -1.547302E-04, -2.912393E-04, 9.564939E-05, 2.113031E-04, -9.450661E-05, -1.456756E-04, 1.201049E-04, 6.518656E-05, -1.367455E-04, 5.028718E-05, 6.503771E-05, -1.074572E-04, 6.807628E-05, 4.985221E-06, -5.712150E-05, 6.131559E-05, -2.576900E-05, -2.021812E-05, 4.642332E-05, -3.791846E-05, 3.051136E-06, 0.000000E+00, 0.000000E+00],
  [-3.686142E-06, -4.040000E-05, -2.838819E-04, -5.697347E-04, 5.329504E-05, 1.602262E-03, 1.440778E-03, -1.514629E-03, -2.524591E-03, 1.238314E-03, 3.222563E-03, -9.141004E-04, -3.547043E-03, 2.682272E-04, 2.967497E-03, 1.179723E-04, -1.951262E-03, -1.406350E-04, 1.050842E-03, 4.136766E-05, -4.206866E-04, 1.664382E-06, 1.816908E-05, 8.872261E-05, 1.701702E-04, -2.867836E-04, -1.064119E-04, 4.438613E-04, -1.793132E-04, -3.501525E-04, 0.000000E+00, -2.293270E-05, -3.243839E-06, 1.239037E-04, 2.001690E-04, 2.330545E-05, -2.314524E-04, -1.918102E-04, 9.106516E-05, 1.710758E-04, -3.433517E-05, -1.211461E-04, 2.065084E-05, 8.790450E-05, -1.877659E-05, -7.624771E-05, 3.959226E-05, 5.596873E-05, -7.447490E-05, 8.779987E-06, 5.628213E-05, -6.379495E-05, 2.386977E-05, 2.019156E-05, -3.470661E-05, 1.705166E-05, 9.399541E-06, -1.919694E-05, 6.859779E-06, 1.190590E-05, 0.000000E+00, 0.000000E+00],
  [1.622612E-05, 1.292463E-04, 3.109358E-04, 8.454756E-07, -1.072748E-03, -1.051449E-03, 1.745270E-03, 3.417189E-03, -7.908663E-04, -4.994411E-03, -4.907952E-04, 5.543835E-03, 1.367835E-03, -5.200821E-03, -1.576471E-03, 4.280126E-03, 1.183647E-03, -3.274010E-03, -5.743363E-04, 2.451844E-03, 1.664382E-06, -1.843236E-03, 5.085587E-04, 1.312032E-03, -9.615418E-04, -6.615372E-04, 1.205799E-03, -1.640093E-04, -9.550768E-04, 8.518195E-04, 0.000000E+00, -1.040891E-05, -6.257064E-05, -1.091135E-04, 1.457606E-05, 2.776283E-04, 3.060207E-04, -4.321228E-05, -2.778070E-04, -4.302161E-05, 1.957268E-04, 3.296558E-05, -1.314074E-04, -6.768646E-06, 8.514470E-05, -7.754934E-06, -5.938984E-05, 2.279569E-05, 3.887224E-05, -4.257939E-05, 1.610180E-06, 3.003467E-05, -2.988323E-05, 1.322197E-05, -1.306006E-06, -1.297547E-06, 3.493450E-06, -1.082620E-05, 1.701395E-05, -1.227230E-05, 0.000000E+00, 0.000000E+00],
  [-9.794021E-06, -1.138541E-04, -2.727344E-04, -4.838456E-05, 7.768529E-04, 9.975182E-04, -6.103209E-04, -2.065725E-03, -4.312973E-04, 2.109538E-03, 1.114389E-03, -1.539009E-03, -9.867328E-04, 1.143657E-03, 6.121692E-04, -9.384939E-04, -3.179084E-04, 7.795279E-04, 1.259589E-04, -6.366337E-04, 1.816908E-05, 5.085587E-04, -1.523111E-04, -3.676038E-04, 2.710193E-04, 1.803765E-04, -3.238648E-04, 4.733244E-05, 2.385375E-04, -2.193338E-04, 0.000000E+00, 3.117354E-05, 8.791836E-05, 8.184336E-05, -5.924328E-05, -2.207939E-04, -1.846801E-04, 4.754989E-05, 1.669477E-04, 1.422116E-05, -1.159256E-04, -1.330743E-05, 7.667963E-05, -5.259238E-07, -5.105492E-05, 1.382652E-05, 3.375592E-05, -2.903366E-05, -8.414680E-06, 3.140882E-05, -2.312424E-05, -8.778428E-07, 1.991448E-05, -2.514429E-05, 1.827916E-05, -4.813964E-06, -9.082349E-06, 1.722881E-05, -1.549267E-05, 4.845307E-06, 0.000000E+00, 0.000000E+00],
  [-7.736374E-06, 1.143493E-05, 1.039478E-04, 2.849026E-04, 2.230400E-04, -7.204365E-04, -2.020808E-03, -1.234056E-03, 2.093032E-03, 3.124229E-03, -1.074980E-03, -3.996399E-03, -1.082421E-05, 3.851512E-03, 5.349358E-04, -3.171337E-03, -4.945240E-04, 2.408654E-03, 2.108582E-04, -1.773548E-03, 8.872261E-05, 1.312032E-03, -3.676038E-04, -9.504681E-04, 6.489097E-04, 5.336297E-04, -8.423075E-04, 2.311758E-05, 7.304293E-04, -5.448361E-04, 0.000000E+00, -2.625222E-05, -4.870675E-05, -1.011448E-05, 1.764839E-05, -4.134039E-05, -5.442891E-05, 5.303318E-05, 8.766245E-05, -2.650288E-05, -7.343596E-05, 2.061547E-05, 4.994041E-05, -2.373784E-05, -2.366386E-05, 1.908668E-05, 3.207240E-06, -2.926100E-06, -3.688201E-06, -4.210927E-06, 1.520610E-05, -1.125471E-05, -5.306993E-06, 1.800525E-05, -1.618239E-05, 4.035589E-06, 6.280966E-06, -7.315411E-06, 1.811706E-06, 2.610680E-06, 0.000000E+00, 0.000000E+00],
  [2.106990E-05, 1.149162E-04, 2.353670E-04, -9.892609E-05, -1.061704E-03, -9.873639E-04, 1.713690E-03, 3.789318E-03, 3.968904E-04, -4.565860E-03, -2.417856E-03, 3.721338E-03, 2.951837E-03, -2.653206E-03, -2.394676E-03, 1.943344E-03, 1.522679E-03, -1.519462E-03, -7.523148E-04, 1.223348E-03, 1.701702E-04, -9.615418E-04, 2.710193E-04, 6.489097E-04, -5.851636E-04, -2.130950E-04, 6.700140E-04, -2.891273E-04, -3.956600E-04, 5.926475E-04, 0.000000E+00, 3.673349E-06, -3.118044E-05, -1.116029E-04, -4.107910E-05, 2.297002E-04, 3.006559E-04, -2.667820E-05, -2.583057E-04, -4.319913E-05, 1.783018E-04, 3.155170E-05, -1.189478E-04, -1.877276E-06, 7.044088E-05, -1.616132E-05, -3.234878E-05, 1.625166E-05, 1.276471E-05, -1.247854E-05, -4.762690E-06, 1.281839E-05, -5.570662E-06, -5.690170E-06, 9.339503E-06, -4.535604E-06, -6.126858E-07, -4.357015E-07, 5.302237E-06, -6.258146E-06, 0.000000E+00, 0.000000E+00],
  [-1.766273E-05, -1.624491E-04, -5.318717E-04, -6.065094E-04, 6.479129E-04, 2.598051E-03, 1.988407E-03, -2.147307E-03, -4.348850E-03, -2.173111E-04, 4.502124E-03, 2.166848E-03, -3.167388E-03, -2.658196E-03, 1.788974E-03, 2.198634E-03, -9.419834E-04, -1.521635E-03, 5.119431E-04, 9.796974E-04, -2.867836E-04, -6.615372E-04, 1.803765E-04, 5.336297E-04, -2.130950E-04, -4.652467E-04, 3.822185E-04, 2.772206E-04, -5.387000E-04, 9.088613E-05, 0.000000E+00, 1.411825E-05, 8.378833E-05, 2.001062E-04, 1.530008E-04, -1.432687E-04, -3.380397E-04, -1.327228E-04, 1.761844E-04, 1.466620E-04, -8.941866E-05, -1.033329E-04, 5.873150E-05, 5.948055E-05, -4.547243E-05, -2.538351E-05, 3.500592E-05, 1.755732E-06, -2.298165E-05, 1.322070E-05, 5.920791E-06, -1.459540E-05, 9.419443E-06, 1.349084E-06, -7.864884E-06, 6.570403E-06, -1.608326E-06, -5.471592E-07, -2.062132E-06, 5.264847E-06, 0.000000E+00, 0.000000E+00],
  [-2.303977E-06, 6.424830E-05, 4.351503E-04, 1.138499E-03, 1.052294E-03, -1.412289E-03, -4.601971E-03, -3.174345E-03, 3.383053E-03, 6.051634E-03, -3.870054E-04, -6.008889E-03, -1.550748E-03, 4.551298E-03, 1.848761E-03, -3.157551E-03, -1.317929E-03, 2.215176E-03, 6.533827E-04, -1.615976E-03, -1.064119E-04, 1.205799E-03, -3.238648E-04, -8.423075E-04, 6.700140E-04, 3.822185E-04, -8.394388E-04, 2.062454E-04, 6.325049E-04, -6.821282E-04, 0.000000E+00, -1.109736E-05, -5.544714E-05, -1.462056E-04, -2.096460E-04, -1.444483E-04, 5.015614E-05, 2.033386E-04, 1.065996E-04, -1.209103E-04, -1.137049E-04, 8.013003E-05, 7.668151E-05, -6.484141E-05, -3.202346E-05, 5.015515E-05, -5.352906E-06, -2.490897E-05, 2.172309E-05, -3.552245E-06, -1.181345E-05, 1.480135E-05, -6.379752E-06, -4.006375E-06, 8.368911E-06, -6.050655E-06, 8.344131E-07, 3.244953E-06, -3.424098E-06, -5.810489E-07, 0.000000E+00, 0.000000E+00],
  [2.333720E-05, 1.263515E-04, 1.555245E-04, -5.968711E-04, -2.267947E-03, -2.347327E-03, 1.830487E-03, 6.292971E-03, 3.164112E-03, -5.133622E-03, -6.044609E-03, 2.061017E-03, 5.635245E-03, -1.316557E-04, -3.884679E-03, -3.329377E-04, 2.290222E-03, 1.554586E-04, -1.182885E-03, 8.551277E-05, 4.438613E-04, -1.640093E-04, 4.733244E-05, 2.311758E-05, -2.891273E-04, 2.772206E-04, 2.062454E-04, -5.268773E-04, 1.748870E-04, 4.424040E-04, 0.000000E+00, -7.281521E-06, -3.660908E-05, -6.015901E-05, 5.600078E-05, 3.169063E-04, 3.625209E-04, -1.985271E-05, -3.209435E-04, -7.837756E-05, 2.224045E-04, 5.892004E-05, -1.494385E-04, -1.227188E-05, 8.904172E-05, -2.181798E-05, -3.515715E-05, 2.662283E-05, -6.614072E-07, -9.963551E-06, 8.445736E-06, -3.486802E-06, -6.442698E-07, 1.997876E-06, -1.705193E-06, 2.147273E-06, -2.644407E-06, 4.744660E-07, 3.731073E-06, -5.049803E-06, 0.000000E+00, 0.000000E+00],
  [-2.545176E-05, -2.458517E-04, -8.314946E-04, -1.003354E-03, 1.024195E-03, 4.663554E-03, 4.591557E-03, -2.190950E-03, -7.853455E-03, -3.016416E-03, 6.141577E-03, 5.561826E-03, -2.952515E-03, -5.042090E-03, 9.977003E-04, 3.535455E-03, -3.051672E-04, -2.247838E-03, 1.706843E-04, 1.413916E-03, -1.793132E-04, -9.550768E-04, 2.385375E-04, 7.304293E-04, -3.956600E-04, -5.387000E-04, 6.325049E-04, 1.748870E-04, -7.353001E-04, 3.540976E-04, 0.000000E+00, 1.930698E-05, 1.088086E-04, 2.748388E-04, 2.624777E-04, -1.283306E-04, -4.994527E-04, -2.896558E-04, 2.267274E-04, 2.746843E-04, -1.046688E-04, -1.846568E-04, 7.444297E-05, 1.012618E-04, -6.661104E-05, -3.641691E-05, 5.133059E-05, -3.224088E-06, -2.820426E-05, 1.805596E-05, 7.611034E-06, -1.753133E-05, 6.155941E-06, 9.302737E-06, -1.229070E-05, 2.485621E-06, 8.342039E-06, -9.823201E-06, 1.686824E-06, 7.597278E-06, 0.000000E+00, 0.000000E+00],
  [2.723484E-06, 1.534264E-04, 9.178979E-04, 2.306111E-03, 2.255190E-03, -1.956968E-03, -7.632681E-03, -6.217150E-03, 3.748227E-03, 9.445501E-03, 1.883460E-03, -7.335624E-03, -4.163326E-03, 4.200329E-03, 3.614392E-03, -2.295839E-03, -2.294840E-03, 1.459230E-03, 1.159512E-03, -1.097291E-03, -3.501525E-04, 8.518195E-04, -2.193338E-04, -5.448361E-04, 5.926475E-04, 9.088613E-05, -6.821282E-04, 4.424040E-04, 3.540976E-04, -7.496768E-04, 0.000000E+00, -8.039925E-06, -8.202843E-05, -2.970295E-04, -4.711468E-04, -2.969137E-04, 1.578809E-04, 3.952848E-04, 1.258192E-04, -2.370659E-04, -1.464662E-04, 1.482579E-04, 8.843498E-05, -1.056371E-04, -2.182419E-05, 6.951852E-05, -2.467761E-05, -2.784597E-05, 3.944915E-05, -1.071292E-05, -2.406709E-05, 2.950426E-05, -5.197153E-06, -1.934763E-05, 2.152827E-05, -5.293718E-06, -1.129822E-05, 1.584854E-05, -8.205788E-06, -4.088228E-06, 0.000000E+00, 0.000000E+00],
  [0.000000E+00, 0.000000E+00, 0.000000E+00, 0.000000E+00, 0.000000E+00, 0.000000E+00, 0.000000E+00, 0.000000E+00, 0.000000E+00, 0.000000E+00, 0.000000E+00, 0.000000E+00, 0.000000E+00, 0.000000E+00, 0.000000E+00, 0.000000E+00, 0.000000E+00, 0.000000E+00, 0.000000E+00, 0.000000E+00, 0.000000E+00, 0.000000E+00, 0.000000E+00, 0.000000E+00, 0.000000E+00, 0.000000E+00, 0.000000E+00, 0.000000E+00, 0.000000E+00, 0.000000E+00, 0.000000E+00, 0.000000E+00, 0.000000E+00, 0.000000E+00, 0.000000E+00, 0.000000E+00, 0.000000E+00, 0.000000E+00, 0.000000E+00, 0.000000E+00, 0.000000E+00, 0.000000E+00, 0.000000E+00, 0.000000E+00, 0.000000E+00, 0.000000E+00, 0.000000E+00, 0.000000E+00, 0.000000E+00, 0.000000E+00, 0.000000E+00, 0.000000E+00, 0.000000E+00, 0.000000E+00, 0.000000E+00, 0.000000E+00, 0.000000E+00, 0.000000E+00, 0.000000E+00, 0.000000E+00, 0.000000E+00, 0.000000E+00],
  [-2.314180E+00, -1.234724E+00, -3.844784E-01, 6.762266E-04, 7.348871E-02, 3.304103E-02, -2.814626E-03, -8.732015E-03, -1.545779E-03, 2.280087E-03, 6.861865E-04, -7.662181E-04, -1.651048E-04, 3.109324E-04, -2.457503E-05, -1.185310E-04, 7.675193E-05, 1.395768E-06, -4.359525E-05, 4.671689E-05, -2.293270E-05, -1.040891E-05, 3.117354E-05, -2.625222E-05, 3.673349E-06, 1.411825E-05, -1.109736E-05, -7.281521E-06, 1.930698E-05, -8.039925E-06, 0.000000E+00, 6.343241E-01, 4.584050E-01, 1.627617E-01, -8.931264E-03, -3.518462E-02, -6.451354E-03, 7.565218E-03, 2.294105E-03, -2.107885E-03, -5.478252E-04, 7.256261E-04, 4.603616E-05, -2.619705E-04, 6.115239E-05, 8.235781E-05, -6.412030E-05, -4.578947E-06, 3.840337E-05, -2.814480E-05, -8.883565E-07, 2.242101E-05, -2.239065E-05, 3.944969E-06, 1.583764E-05, -1.951705E-05, 4.175341E-06, 1.578324E-05, -2.126249E-05, 5.622345E-06, 0.000000E+00, 0.000000E+00]]

/-- `Daejeon16_public_v2.f90` 660-675. -/
def coup3dg_3 : List (List Num) := [
  [-1.511051E+00, -2.214587E+00, -1.236035E+00, -2.499751E-01, 1.684318E-01, 1.499205E-01, 2.052686E-02, -3.270030E-02, -1.380899E-02, 7.468950E-03, 4.938250E-03, -2.469526E-03, -1.488627E-03, 1.125744E-03, 2.663047E-04, -5.205236E-04, 1.338834E-04, 1.280727E-04, -1.499172E-04, 8.093406E-05, -3.243839E-06, -6.257064E-05, 8.791836E-05, -4.870675E-05, -3.118044E-05, 8.378833E-05, -5.544714E-05, -3.660908E-05, 1.088086E-04, -8.202843E-05, 0.000000E+00, 4.584050E-01, 7.454589E-01, 4.849428E-01, 9.008072E-02, -8.510779E-02, -4.850360E-02, 1.433301E-02, 1.552374E-02, -4.044394E-03, -4.691674E-03, 1.908902E-03, 1.242262E-03, -9.785054E-04, -1.551200E-04, 4.211612E-04, -1.109366E-04, -1.213383E-04, 1.158838E-04, -1.599052E-05, -5.506650E-05, 6.799251E-05, -3.402848E-05, -2.496596E-05, 7.313643E-05, -7.152898E-05, 1.125877E-05, 6.770175E-05, -1.013356E-04, 5.478438E-05, 0.000000E+00, 0.000000E+00],
  [-3.576604E-01, -1.348016E+00, -1.663579E+00, -7.602928E-01, 9.811432E-02, 3.126473E-01, 1.174723E-01, -5.133783E-02, -4.850581E-02, 8.145201E-03, 1.630765E-02, -2.751327E-03, -5.369858E-03, 1.777797E-03, 1.524138E-03, -1.080151E-03, -1.810400E-04, 4.817203E-04, -1.802583E-04, -6.781628E-05, 1.239037E-04, -1.091135E-04, 8.184336E-05, -1.011448E-05, -1.116029E-04, 2.001062E-04, -1.462056E-04, -6.015901E-05, 2.748388E-04, -2.970295E-04, 0.000000E+00, 1.627617E-01, 4.849428E-01, 5.978223E-01, 2.771279E-01, -6.290469E-02, -1.162529E-01, -8.010690E-03, 3.693743E-02, 4.182975E-03, -1.271856E-02, 1.756576E-05, 4.525903E-03, -1.094819E-03, -1.367368E-03, 8.826865E-04, 1.993030E-04, -4.450406E-04, 1.315079E-04, 1.216207E-04, -1.389755E-04, 5.797809E-05, 3.418006E-06, -4.361479E-05, 8.605313E-05, -1.024385E-04, 4.339465E-05, 8.177797E-05, -1.819383E-04, 1.548911E-04, 0.000000E+00, 0.000000E+00],
  [1.257670E-01, -1.274668E-01, -7.687543E-01, -8.754258E-01, -1.906331E-01, 3.148406E-01, 2.502851E-01, -1.027275E-02, -8.675126E-02, -1.143803E-02, 2.841536E-02, 4.011043E-03, -1.021691E-02, -1.484487E-05, 3.707910E-03, -9.582723E-04, -1.112226E-03, 8.085333E-04, 8.677952E-05, -3.871275E-04, 2.001690E-04, 1.457606E-05, -5.924328E-05, 1.764839E-05, -4.107910E-05, 1.530008E-04, -2.096460E-04, 5.600078E-05, 2.624777E-04, -4.711468E-04, 0.000000E+00, -8.931264E-03, 9.008072E-02, 2.771279E-01, 2.861418E-01, 4.034285E-02, -1.241556E-01, -6.087072E-02, 3.567797E-02, 2.556358E-02, -1.364166E-02, -8.126039E-03, 6.552734E-03, 1.558302E-03, -3.026466E-03, 4.233156E-04, 1.077867E-03, -6.457577E-04, -1.646158E-04, 3.676829E-04, -1.108355E-04, -1.133730E-04, 9.871263E-05, 2.662320E-05, -6.535376E-05, -2.434601E-05, 1.161349E-04, -7.281042E-05, -9.665064E-05, 2.310150E-04, 0.000000E+00, 0.000000E+00],
  [8.438230E-02, 2.635519E-01, 1.843779E-01, -2.047551E-01, -2.898163E-01, 7.114967E-02, 2.472519E-01, 8.468512E-02, -7.146765E-02, -4.494754E-02, 2.198900E-02, 1.651958E-02, -9.121026E-03, -4.871462E-03, 4.391841E-03, 7.043032E-04, -1.942303E-03, 4.716341E-04, 5.987089E-04, -5.254672E-04, 2.330545E-05, 2.776283E-04, -2.207939E-04, -4.134039E-05, 2.297002E-04, -1.432687E-04, -1.444483E-04, 3.169063E-04, -1.283306E-04, -2.969137E-04, 0.000000E+00, -3.518462E-02, -8.510779E-02, -6.290469E-02, 4.034285E-02, 5.869440E-02, -4.654285E-02, -7.871473E-02, -3.039593E-03, 3.473038E-02, 2.188416E-03, -1.422540E-02, 1.448077E-03, 5.386611E-03, -2.220466E-03, -1.435097E-03, 1.536045E-03, -7.845071E-05, -6.661129E-04, 4.089231E-04, 1.092582E-04, -3.210515E-04, 1.634588E-04, 1.200075E-04, -2.547195E-04, 1.306473E-04, 1.319105E-04, -2.850392E-04, 1.680563E-04, 1.373812E-04, 0.000000E+00, 0.000000E+00],
  [-1.617896E-02, 7.304047E-02, 2.740566E-01, 2.863120E-01, 1.897518E-02, -1.049090E-01, 5.099286E-02, 1.114855E-01, 7.594197E-03, -4.823286E-02, -7.019348E-03, 1.907651E-02, 1.272363E-03, -7.522321E-03, 1.052727E-03, 2.626230E-03, -1.254257E-03, -5.599933E-04, 7.630579E-04, -1.791963E-04, -2.314524E-04, 3.060207E-04, -1.846801E-04, -5.442891E-05, 3.006559E-04, -3.380397E-04, 5.015614E-05, 3.625209E-04, -4.994527E-04, 1.578809E-04, 0.000000E+00, -6.451354E-03, -4.850360E-02, -1.162529E-01, -1.241556E-01, -4.654285E-02, -1.315832E-03, -3.295512E-02, -3.219778E-02, 1.147531E-02, 1.782978E-02, -5.867105E-03, -6.898372E-03, 4.023635E-03, 1.678821E-03, -2.296407E-03, 2.611495E-04, 8.570438E-04, -5.734026E-04, -2.962807E-05, 2.770908E-04, -2.126982E-04, 6.447558E-05, 7.366380E-05, -1.759678E-04, 1.756112E-04, -2.150083E-05, -2.041975E-04, 3.033788E-04, -1.395786E-04, 0.000000E+00, 0.000000E+00],
  [-1.806954E-02, -6.081095E-02, -2.256862E-02, 1.305677E-01, 1.708464E-01, 1.896177E-03, -8.677676E-02, 1.286095E-02, 5.519576E-02, -2.454670E-03, -2.490395E-02, 2.197100E-03, 9.881131E-03, -2.491588E-03, -3.368028E-03, 1.891348E-03, 7.360262E-04, -1.022729E-03, 1.207064E-04, 3.472088E-04, -1.918102E-04, -4.321228E-05, 4.754989E-05, 5.303318E-05, -2.667820E-05, -1.327228E-04, 2.033386E-04, -1.985271E-05, -2.896558E-04, 3.952848E-04, 0.000000E+00, 7.565218E-03, 1.433301E-02, -8.010690E-03, -6.087072E-02, -7.871473E-02, -3.295512E-02, -1.485365E-03, -1.731675E-02, -1.370266E-02, 1.054992E-02, 8.207544E-03, -5.950985E-03, -2.588301E-03, 3.290131E-03, -1.792016E-05, -1.394791E-03, 6.323543E-04, 3.047142E-04, -4.353483E-04, 7.618548E-05, 1.757215E-04, -1.136870E-04, -7.457506E-05, 1.298242E-04, 7.128723E-06, -1.683486E-04, 1.515098E-04, 6.089126E-05, -2.671186E-04, 0.000000E+00, 0.000000E+00],
  [4.309507E-03, -1.906137E-02, -8.578635E-02, -9.931325E-02, 4.155805E-03, 6.789810E-02, -9.959514E-03, -5.437677E-02, 9.925546E-03, 3.118298E-02, -5.695019E-03, -1.346849E-02, 4.151397E-03, 4.722681E-03, -2.763215E-03, -1.100704E-03, 1.471748E-03, -1.102539E-04, -5.806885E-04, 3.474274E-04, 9.106516E-05, -2.778070E-04, 1.669477E-04, 8.766245E-05, -2.583057E-04, 1.761844E-04, 1.065996E-04, -3.209435E-04, 2.267274E-04, 1.258192E-04, 0.000000E+00, 2.294105E-03, 1.552374E-02, 3.693743E-02, 3.567797E-02, -3.039593E-03, -3.219778E-02, -1.731675E-02, -1.666486E-03, -9.577813E-03, -4.983002E-03, 7.847292E-03, 2.940952E-03, -4.539163E-03, -3.333299E-04, 2.141219E-03, -6.816654E-04, -6.134812E-04, 6.198294E-04, -1.006715E-04, -2.232731E-04, 2.380420E-04, -9.414568E-05, -8.065634E-05, 1.923626E-04, -1.529314E-04, -4.104005E-05, 2.402102E-04, -2.415192E-04, -2.489308E-06, 0.000000E+00, 0.000000E+00],
  [3.871286E-03, 1.807167E-02, 1.160653E-02, -4.509342E-02, -7.828498E-02, -1.462080E-02, 4.339876E-02, 2.701940E-03, -2.952968E-02, 5.524534E-03, 1.596834E-02, -5.137437E-03, -6.394624E-03, 3.534471E-03, 1.752676E-03, -1.930971E-03, -5.535146E-05, 7.797635E-04, -2.994103E-04, -1.547302E-04, 1.710758E-04, -4.302161E-05, 1.422116E-05, -2.650288E-05, -4.319913E-05, 1.466620E-04, -1.209103E-04, -7.837756E-05, 2.746843E-04, -2.370659E-04, 0.000000E+00, -2.107885E-03, -4.044394E-03, 4.182975E-03, 2.556358E-02, 3.473038E-02, 1.147531E-02, -1.370266E-02, -9.577813E-03, -4.846118E-04, -4.582987E-03, -1.563624E-03, 4.812229E-03, 6.040753E-04, -2.835156E-03, 4.809741E-04, 1.156368E-03, -6.730460E-04, -2.086856E-04, 3.876958E-04, -8.838722E-05, -1.337107E-04, 8.216655E-05, 6.854691E-05, -8.644496E-05, -5.222320E-05, 1.621418E-04, -7.963464E-05, -1.343591E-04, 2.478393E-04, 0.000000E+00, 0.000000E+00],
  [-1.611236E-03, 3.168194E-03, 2.657594E-02, 4.201681E-02, 7.383326E-03, -3.321697E-02, -8.008806E-03, 2.827960E-02, 3.952731E-03, -1.785255E-02, 3.043560E-03, 8.677809E-03, -3.682781E-03, -2.969846E-03, 2.422393E-03, 4.664962E-04, -1.142711E-03, 2.458771E-04, 3.776706E-04, -2.912393E-04, -3.433517E-05, 1.957268E-04, -1.159256E-04, -7.343596E-05, 1.783018E-04, -8.941866E-05, -1.137049E-04, 2.224045E-04, -1.046688E-04, -1.464662E-04, 0.000000E+00, -5.478252E-04, -4.691674E-03, -1.271856E-02, -1.364166E-02, 2.188416E-03, 1.782978E-02, 1.054992E-02, -4.983002E-03, -4.582987E-03, 9.523887E-05, -2.401643E-03, -3.995739E-04, 2.818351E-03, -2.413573E-04, -1.613064E-03, 6.709334E-04, 5.048238E-04, -5.471003E-04, 7.848314E-05, 1.987980E-04, -2.006667E-04, 7.614629E-05, 7.576738E-05, -1.702010E-04, 1.173069E-04, 6.636313E-05, -2.131692E-04, 1.574846E-04, 7.040692E-05, 0.000000E+00, 0.000000E+00],
  [-7.051299E-04, -5.954617E-03, -8.687457E-03, 9.268408E-03, 3.211235E-02, 1.602463E-02, -1.852255E-02, -1.019242E-02, 1.532704E-02, 3.601530E-03, -1.019593E-02, 1.864802E-03, 4.620999E-03, -2.479846E-03, -1.256366E-03, 1.502453E-03, -3.885605E-05, -5.745920E-04, 2.506069E-04, 9.564939E-05, -1.211461E-04, 3.296558E-05, -1.330743E-05, 2.061547E-05, 3.155170E-05, -1.033329E-04, 8.013003E-05, 5.892004E-05, -1.846568E-04, 1.482579E-04, 0.000000E+00, 7.256261E-04, 1.908902E-03, 1.756576E-05, -8.126039E-03, -1.422540E-02, -5.867105E-03, 8.207544E-03, 7.847292E-03, -1.563624E-03, -2.401643E-03, 1.880452E-04, -1.268858E-03, -2.766939E-05, 1.586712E-03, -4.113663E-04, -8.638172E-04, 5.397004E-04, 2.197001E-04, -3.508625E-04, 4.530757E-05, 1.480226E-04, -6.880060E-05, -7.816574E-05, 7.750213E-05, 5.568767E-05, -1.339755E-04, 4.260215E-05, 1.209134E-04, -1.669403E-04, 0.000000E+00, 0.000000E+00],
  [5.705275E-04, 3.671274E-04, -7.018496E-03, -1.809187E-02, -1.135340E-02, 1.091905E-02, 1.059082E-02, -1.088611E-02, -8.608616E-03, 8.605165E-03, 2.889651E-03, -5.928961E-03, 1.129169E-03, 2.462276E-03, -1.575410E-03, -4.535206E-04, 8.641816E-04, -1.813332E-04, -2.770455E-04, 2.113031E-04, 2.065084E-05, -1.314074E-04, 7.667963E-05, 4.994041E-05, -1.189478E-04, 5.873150E-05, 7.668151E-05, -1.494385E-04, 7.444297E-05, 8.843498E-05, 0.000000E+00, 4.603616E-05, 1.242262E-03, 4.525903E-03, 6.552734E-03, 1.448077E-03, -6.898372E-03, -5.950985E-03, 2.940952E-03, 4.812229E-03, -3.995739E-04, -1.268858E-03, 1.739475E-04, -7.021606E-04, 8.342320E-05, 8.695086E-04, -3.970480E-04, -3.937728E-04, 4.016043E-04, -1.540581E-05, -1.793943E-04, 1.443770E-04, -3.937238E-05, -6.606225E-05, 1.253325E-04, -7.583630E-05, -5.906886E-05, 1.462812E-04, -8.582298E-05, -6.394183E-05, 0.000000E+00, 0.000000E+00],
  [7.769181E-05, 1.822525E-03, 5.007669E-03, 1.732458E-03, -1.001626E-02, -1.144227E-02, 4.336799E-03, 9.137479E-03, -4.798775E-03, -6.318635E-03, 4.587249E-03, 2.042250E-03, -3.469406E-03, 7.332629E-04, 1.334804E-03, -9.980348E-04, -1.203385E-04, 4.717556E-04, -1.661420E-04, -9.450661E-05, 8.790450E-05, -6.768646E-06, -5.259238E-07, -2.373784E-05, -1.877276E-06, 5.948055E-05, -6.484141E-05, -1.227188E-05, 1.012618E-04, -1.056371E-04, 0.000000E+00, -2.619705E-04, -9.785054E-04, -1.094819E-03, 1.558302E-03, 5.386611E-03, 4.023635E-03, -2.588301E-03, -4.539163E-03, 6.040753E-04, 2.818351E-03, -2.766939E-05, -7.021606E-04, 1.499157E-04, -4.103081E-04, 6.988951E-05, 5.059381E-04, -2.844617E-04, -2.252620E-04, 2.736330E-04, 8.560678E-06, -1.584733E-04, 5.881435E-05, 8.100263E-05, -7.657791E-05, -3.563491E-05, 9.587329E-05, -3.218781E-05, -6.931254E-05, 8.880039E-05, 0.000000E+00, 0.000000E+00],
  [-1.864934E-04, -6.959868E-04, 8.619262E-04, 6.426692E-03, 8.429143E-03, -3.538222E-04, -6.791081E-03, 1.300902E-03, 6.657052E-03, -1.724778E-03, -4.318302E-03, 2.361987E-03, 1.398247E-03, -1.981386E-03, 4.525570E-04, 6.812310E-04, -5.923116E-04, 2.669222E-05, 2.383850E-04, -1.456756E-04, -1.877659E-05, 8.514470E-05, -5.105492E-05, -2.366386E-05, 7.044088E-05, -4.547243E-05, -3.202346E-05, 8.904172E-05, -6.661104E-05, -2.182419E-05, 0.000000E+00, 6.115239E-05, -1.551200E-04, -1.367368E-03, -3.026466E-03, -2.220466E-03, 1.678821E-03, 3.290131E-03, -3.333299E-04, -2.835156E-03, -2.413573E-04, 1.586712E-03, 8.342320E-05, -4.103081E-04, 9.624894E-05, -2.161564E-04, 6.789938E-05, 2.422232E-04, -1.928625E-04, -4.540574E-05, 1.301949E-04, -7.134557E-05, 2.627576E-06, 4.452142E-05, -6.803961E-05, 3.797412E-05, 3.392003E-05, -7.401200E-05, 3.695122E-05, 3.282515E-05, 0.000000E+00, 0.000000E+00],
  [-3.865434E-06, -3.985842E-04, -2.123679E-03, -3.115744E-03, 8.482077E-04, 5.404760E-03, 1.314843E-03, -4.822731E-03, -6.831367E-04, 4.344062E-03, -3.100314E-04, -2.759958E-03, 1.277554E-03, 8.737783E-04, -1.205968E-03, 3.394955E-04, 3.670625E-04, -3.813023E-04, 5.949489E-05, 1.201049E-04, -7.624771E-05, -7.754934E-06, 1.382652E-05, 1.908668E-05, -1.616132E-05, -2.538351E-05, 5.015515E-05, -2.181798E-05, -3.641691E-05, 6.951852E-05, 0.000000E+00, 8.235781E-05, 4.211612E-04, 8.826865E-04, 4.233156E-04, -1.435097E-03, -2.296407E-03, -1.792016E-05, 2.141219E-03, 4.809741E-04, -1.613064E-03, -4.113663E-04, 8.695086E-04, 6.988951E-05, -2.161564E-04, 8.171362E-05, -1.624563E-04, 5.005661E-05, 1.781935E-04, -1.545796E-04, -5.091780E-05, 1.376404E-04, -3.962886E-05, -7.306960E-05, 6.762256E-05, 1.554062E-05, -6.033748E-05, 2.631499E-05, 2.727799E-05, -3.641600E-05, 0.000000E+00, 0.000000E+00],
  [1.026879E-04, 4.178399E-04, 5.104009E-04, -1.273288E-03, -3.997609E-03, -2.514354E-03, 2.378552E-03, 1.845700E-03, -2.902640E-03, -1.432742E-03, 2.636221E-03, 3.572793E-04, -1.772420E-03, 5.903070E-04, 6.142419E-04, -6.892745E-04, 1.827810E-04, 1.847241E-04, -2.071303E-04, 6.518656E-05, 3.959226E-05, -5.938984E-05, 3.375592E-05, 3.207240E-06, -3.234878E-05, 3.500592E-05, -5.352906E-06, -3.515715E-05, 5.133059E-05, -2.467761E-05, 0.000000E+00, -6.412030E-05, -1.109366E-04, 1.993030E-04, 1.077867E-03, 1.536045E-03, 2.611495E-04, -1.394791E-03, -6.816654E-04, 1.156368E-03, 6.709334E-04, -8.638172E-04, -3.970480E-04, 5.059381E-04, 6.789938E-05, -1.624563E-04, 6.087968E-05, -5.869561E-05, 1.220056E-05, 6.350080E-05, -5.511768E-05, 1.904935E-06, 1.927790E-05, -1.696333E-05, 1.711256E-05, -8.787340E-06, -1.242310E-05, 2.130710E-05, -4.685760E-06, -1.381310E-05, 0.000000E+00, 0.000000E+00],
  [-4.081207E-05, -1.228484E-05, 6.173773E-04, 1.836870E-03, 1.515322E-03, -1.161009E-03, -1.879541E-03, 1.175854E-03, 1.812736E-03, -1.401606E-03, -1.304875E-03, 1.376432E-03, 3.853231E-04, -9.892179E-04, 3.313813E-04, 3.109961E-04, -4.118696E-04, 1.677514E-04, 7.688205E-05, -1.367455E-04, 5.596873E-05, 2.279569E-05, -2.903366E-05, -2.926100E-06, 1.625166E-05, 1.755732E-06, -2.490897E-05, 2.662283E-05, -3.224088E-06, -2.784597E-05, 0.000000E+00, -4.578947E-06, -1.213383E-04, -4.450406E-04, -6.457577E-04, -7.845071E-05, 8.570438E-04, 6.323543E-04, -6.134812E-04, -6.730460E-04, 5.048238E-04, 5.397004E-04, -3.937728E-04, -2.844617E-04, 2.422232E-04, 5.005661E-05, -5.869561E-05, 2.309779E-05, -7.046988E-05, 4.524067E-05, 5.492719E-05, -8.437868E-05, 1.244032E-05, 5.527083E-05, -4.431967E-05, -9.300200E-06, 3.354701E-05, -1.302547E-05, -1.184719E-05, 9.995022E-06, 0.000000E+00, 0.000000E+00]]

/-- `Daejeon16_public_v2.f90` 676-689. -/
def coup3dg_4 : List (List Num) := [
  [-5.863296E-05, -1.953451E-04, -5.117371E-04, -3.608123E-04, 1.035417E-03, 1.876509E-03, 7.785891E-06, -1.551855E-03, 3.746002E-04, 1.576464E-03, -6.489753E-04, -1.133126E-03, 8.343944E-04, 4.067868E-04, -6.991831E-04, 1.731624E-04, 2.579617E-04, -2.762734E-04, 9.081620E-05, 5.028718E-05, -7.447490E-05, 3.887224E-05, -8.414680E-06, -3.688201E-06, 1.276471E-05, -2.298165E-05, 2.172309E-05, -6.614072E-07, -2.820426E-05, 3.944915E-05, 0.000000E+00, 3.840337E-05, 1.158838E-04, 1.315079E-04, -1.646158E-04, -6.661129E-04, -5.734026E-04, 3.047142E-04, 6.198294E-04, -2.086856E-04, -5.471003E-04, 2.197001E-04, 4.016043E-04, -2.252620E-04, -1.928625E-04, 1.781935E-04, 1.220056E-05, -7.046988E-05, 5.132585E-05, -2.558618E-05, -1.072245E-05, 3.235287E-05, -1.800410E-05, -5.574861E-06, 1.169578E-05, -6.742759E-06, 2.388371E-06, 3.739900E-06, -1.162080E-05, 9.827141E-06, 0.000000E+00, 0.000000E+00],
  [8.810634E-05, 1.148853E-04, -1.212009E-05, -5.682033E-04, -1.218030E-03, -6.172663E-04, 8.033073E-04, 4.575256E-04, -1.007181E-03, -3.364995E-04, 1.014209E-03, 4.874744E-05, -7.589184E-04, 2.552530E-04, 3.306866E-04, -3.201424E-04, 4.358621E-05, 1.229741E-04, -1.327875E-04, 6.503771E-05, 8.779987E-06, -4.257939E-05, 3.140882E-05, -4.210927E-06, -1.247854E-05, 1.322070E-05, -3.552245E-06, -9.963551E-06, 1.805596E-05, -1.071292E-05, 0.000000E+00, -2.814480E-05, -1.599052E-05, 1.216207E-04, 3.676829E-04, 4.089231E-04, -2.962807E-05, -4.353483E-04, -1.006715E-04, 3.876958E-04, 7.848314E-05, -3.508625E-04, -1.540581E-05, 2.736330E-04, -4.540574E-05, -1.545796E-04, 6.350080E-05, 4.524067E-05, -2.558618E-05, -3.929762E-06, -1.672754E-05, 2.498299E-05, 6.648900E-06, -3.085408E-05, 1.487449E-05, 1.440731E-05, -1.804885E-05, -2.460185E-06, 1.541935E-05, -4.257824E-06, 0.000000E+00, 0.000000E+00],
  [-3.709454E-05, 6.646982E-05, 3.013652E-04, 4.445178E-04, 1.030389E-04, -5.642791E-04, -4.497232E-04, 4.511469E-04, 3.554799E-04, -5.791343E-04, -2.258484E-04, 5.903397E-04, -1.313011E-05, -4.366129E-04, 2.208336E-04, 1.572867E-04, -2.370292E-04, 7.893980E-05, 7.372570E-05, -1.074572E-04, 5.628213E-05, 1.610180E-06, -2.312424E-05, 1.520610E-05, -4.762690E-06, 5.920791E-06, -1.181345E-05, 8.445736E-06, 7.611034E-06, -2.406709E-05, 0.000000E+00, -8.883565E-07, -5.506650E-05, -1.389755E-04, -1.108355E-04, 1.092582E-04, 2.770908E-04, 7.618548E-05, -2.232731E-04, -8.838722E-05, 1.987980E-04, 4.530757E-05, -1.793943E-04, 8.560678E-06, 1.301949E-04, -5.091780E-05, -5.511768E-05, 5.492719E-05, -1.072245E-05, -1.672754E-05, 2.659835E-05, -2.070194E-05, 1.695608E-06, 1.335315E-05, -1.361172E-05, 5.999670E-06, 7.954739E-07, -6.396587E-06, 1.053215E-05, -8.087052E-06, 0.000000E+00, 0.000000E+00],
  [-3.509037E-05, -1.622413E-04, -2.701818E-04, -3.522358E-05, 6.040808E-04, 7.951240E-04, -7.123404E-05, -6.170056E-04, 2.465893E-04, 6.619105E-04, -3.605340E-04, -5.291038E-04, 4.341738E-04, 2.432455E-04, -3.917035E-04, 3.706967E-05, 2.034862E-04, -1.477498E-04, 3.912943E-06, 6.807628E-05, -6.379495E-05, 3.003467E-05, -8.778428E-07, -1.125471E-05, 1.281839E-05, -1.459540E-05, 1.480135E-05, -3.486802E-06, -1.753133E-05, 2.950426E-05, 0.000000E+00, 2.242101E-05, 6.799251E-05, 5.797809E-05, -1.133730E-04, -3.210515E-04, -2.126982E-04, 1.757215E-04, 2.380420E-04, -1.337107E-04, -2.006667E-04, 1.480226E-04, 1.443770E-04, -1.584733E-04, -7.134557E-05, 1.376404E-04, 1.904935E-06, -8.437868E-05, 3.235287E-05, 2.498299E-05, -2.070194E-05, 1.946022E-06, -4.857744E-06, 9.336310E-06, 3.797585E-06, -1.803228E-05, 1.102955E-05, 1.072342E-05, -2.107039E-05, 7.723859E-06, 0.000000E+00, 0.000000E+00],
  [6.696695E-05, 1.018311E-04, 6.414855E-05, -1.041078E-04, -3.658074E-04, -3.081579E-04, 1.697846E-04, 2.681002E-04, -2.155157E-04, -2.361455E-04, 2.423355E-04, 1.273254E-04, -2.278304E-04, 1.081020E-05, 1.447808E-04, -9.352068E-05, -2.280842E-05, 7.142468E-05, -4.840323E-05, 4.985221E-06, 2.386977E-05, -2.988323E-05, 1.991448E-05, -5.306993E-06, -5.570662E-06, 9.419443E-06, -6.379752E-06, -6.442698E-07, 6.155941E-06, -5.197153E-06, 0.000000E+00, -2.239065E-05, -3.402848E-05, 3.418006E-06, 9.871263E-05, 1.634588E-04, 6.447558E-05, -1.136870E-04, -9.414568E-05, 8.216655E-05, 7.614629E-05, -6.880060E-05, -3.937238E-05, 5.881435E-05, 2.627576E-06, -3.962886E-05, 1.927790E-05, 1.244032E-05, -1.800410E-05, 6.648900E-06, 1.695608E-06, -4.857744E-06, 6.696685E-06, -5.395364E-06, 2.892500E-07, 3.559505E-06, -2.377265E-06, -1.041420E-06, 1.717043E-06, 1.070713E-06, 0.000000E+00, 0.000000E+00],
  [-4.387568E-05, 5.614540E-05, 1.780232E-04, 5.046355E-05, -2.472577E-04, -3.106003E-04, -8.374810E-07, 1.934411E-04, -8.906826E-05, -2.504804E-04, 1.205311E-04, 2.464427E-04, -1.451220E-04, -1.676069E-04, 1.591000E-04, 5.547823E-05, -1.283761E-04, 3.615689E-05, 5.071696E-05, -5.712150E-05, 2.019156E-05, 1.322197E-05, -2.514429E-05, 1.800525E-05, -5.690170E-06, 1.349084E-06, -4.006375E-06, 1.997876E-06, 9.302737E-06, -1.934763E-05, 0.000000E+00, 3.944969E-06, -2.496596E-05, -4.361479E-05, 2.662320E-05, 1.200075E-04, 7.366380E-05, -7.457506E-05, -8.065634E-05, 6.854691E-05, 7.576738E-05, -7.816574E-05, -6.606225E-05, 8.100263E-05, 4.452142E-05, -7.306960E-05, -1.696333E-05, 5.527083E-05, -5.574861E-06, -3.085408E-05, 1.335315E-05, 9.336310E-06, -5.395364E-06, -4.232496E-06, -1.805230E-06, 1.231704E-05, -7.958113E-06, -8.332237E-06, 1.694694E-05, -7.775302E-06, 0.000000E+00, 0.000000E+00],
  [-1.699190E-06, -1.782594E-04, -3.284902E-04, -7.102179E-05, 4.773328E-04, 5.824924E-04, -5.900504E-05, -4.400420E-04, 1.448228E-04, 4.716055E-04, -1.810966E-04, -3.796411E-04, 2.233378E-04, 2.022265E-04, -2.229318E-04, -2.479202E-05, 1.442540E-04, -7.262723E-05, -2.978362E-05, 6.131559E-05, -3.470661E-05, -1.306006E-06, 1.827916E-05, -1.618239E-05, 9.339503E-06, -7.864884E-06, 8.368911E-06, -1.705193E-06, -1.229070E-05, 2.152827E-05, 0.000000E+00, 1.583764E-05, 7.313643E-05, 8.605313E-05, -6.535376E-05, -2.547195E-04, -1.759678E-04, 1.298242E-04, 1.923626E-04, -8.644496E-05, -1.702010E-04, 7.750213E-05, 1.253325E-04, -7.657791E-05, -6.803961E-05, 6.762256E-05, 1.711256E-05, -4.431967E-05, 1.169578E-05, 1.487449E-05, -1.361172E-05, 3.797585E-06, 2.892500E-07, -1.805230E-06, 5.815384E-06, -8.662214E-06, 4.087814E-06, 6.043401E-06, -1.185195E-05, 6.430232E-06, 0.000000E+00, 0.000000E+00],
  [2.773039E-05, 1.594210E-04, 2.705135E-04, 1.800608E-04, -1.199024E-04, -3.332676E-04, -8.079899E-05, 3.057593E-04, 1.063754E-04, -2.902448E-04, -7.899035E-05, 2.157321E-04, -2.914881E-06, -1.198377E-04, 5.895346E-05, 2.499700E-05, -5.166269E-05, 2.978468E-05, 7.439192E-06, -2.576900E-05, 1.705166E-05, -1.297547E-06, -4.813964E-06, 4.035589E-06, -4.535604E-06, 6.570403E-06, -6.050655E-06, 2.147273E-06, 2.485621E-06, -5.293718E-06, 0.000000E+00, -1.951705E-05, -7.152898E-05, -1.024385E-04, -2.434601E-05, 1.306473E-04, 1.756112E-04, 7.128723E-06, -1.529314E-04, -5.222320E-05, 1.173069E-04, 5.568767E-05, -7.583630E-05, -3.563491E-05, 3.797412E-05, 1.554062E-05, -8.787340E-06, -9.300200E-06, -6.742759E-06, 1.440731E-05, 5.999670E-06, -1.803228E-05, 3.559505E-06, 1.231704E-05, -8.662214E-06, -3.822990E-06, 6.566235E-06, 5.975443E-07, -5.147461E-06, 1.602234E-06, 0.000000E+00, 0.000000E+00],
  [-2.005224E-05, -9.469709E-06, 5.210283E-06, -1.615362E-04, -4.004343E-04, -2.294323E-04, 2.005187E-04, 1.147836E-04, -3.056502E-04, -1.504113E-04, 2.806780E-04, 1.145847E-04, -2.057372E-04, -3.726226E-05, 1.251747E-04, -1.696494E-05, -5.535861E-05, 3.092438E-05, 9.983514E-06, -2.021812E-05, 9.399541E-06, 3.493450E-06, -9.082349E-06, 6.280966E-06, -6.126858E-07, -1.608326E-06, 8.344131E-07, -2.644407E-06, 8.342039E-06, -1.129822E-05, 0.000000E+00, 4.175341E-06, 1.125877E-05, 4.339465E-05, 1.161349E-04, 1.319105E-04, -2.150083E-05, -1.683486E-04, -4.104005E-05, 1.621418E-04, 6.636313E-05, -1.339755E-04, -5.906886E-05, 9.587329E-05, 3.392003E-05, -6.033748E-05, -1.242310E-05, 3.354701E-05, 2.388371E-06, -1.804885E-05, 7.954739E-07, 1.102955E-05, -2.377265E-06, -7.958113E-06, 4.087814E-06, 6.566235E-06, -7.892569E-06, -2.446451E-06, 1.134455E-05, -7.663760E-06, 0.000000E+00, 0.000000E+00],
  [-1.621505E-06, -1.509785E-04, -3.307348E-04, -1.020374E-04, 5.158638E-04, 6.400146E-04, -9.062078E-05, -4.831805E-04, 1.559643E-04, 4.838617E-04, -1.536383E-04, -3.508503E-04, 1.736811E-04, 1.705366E-04, -1.648663E-04, -2.222460E-05, 1.036207E-04, -4.983861E-05, -2.577191E-05, 4.642332E-05, -1.919694E-05, -1.082620E-05, 1.722881E-05, -7.315411E-06, -4.357015E-07, -5.471592E-07, 3.244953E-06, 4.744660E-07, -9.823201E-06, 1.584854E-05, 0.000000E+00, 1.578324E-05, 6.770175E-05, 8.177797E-05, -7.281042E-05, -2.850392E-04, -2.041975E-04, 1.515098E-04, 2.402102E-04, -7.963464E-05, -2.131692E-04, 4.260215E-05, 1.462812E-04, -3.218781E-05, -7.401200E-05, 2.631499E-05, 2.130710E-05, -1.302547E-05, 3.739900E-06, -2.460185E-06, -6.396587E-06, 1.072342E-05, -1.041420E-06, -8.332237E-06, 6.043401E-06, 5.975443E-07, -2.446451E-06, 1.669647E-06, -3.170917E-06, 4.552414E-06, 0.000000E+00, 0.000000E+00],
  [8.528267E-06, 1.891877E-04, 4.505792E-04, 4.229031E-04, -7.258513E-05, -5.225550E-04, -1.898575E-04, 4.603739E-04, 2.360340E-04, -4.080673E-04, -1.830767E-04, 3.008487E-04, 4.626590E-05, -1.846741E-04, 5.614700E-05, 6.765089E-05, -7.590582E-05, 1.571422E-05, 3.565594E-05, -3.791846E-05, 6.859779E-06, 1.701395E-05, -1.549267E-05, 1.811706E-06, 5.302237E-06, -2.062132E-06, -3.424098E-06, 3.731073E-06, 1.686824E-06, -8.205788E-06, 0.000000E+00, -2.126249E-05, -1.013356E-04, -1.819383E-04, -9.665064E-05, 1.680563E-04, 3.033788E-04, 6.089126E-05, -2.415192E-04, -1.343591E-04, 1.574846E-04, 1.209134E-04, -8.582298E-05, -6.931254E-05, 3.695122E-05, 2.727799E-05, -4.685760E-06, -1.184719E-05, -1.162080E-05, 1.541935E-05, 1.053215E-05, -2.107039E-05, 1.717043E-06, 1.694694E-05, -1.185195E-05, -5.147461E-06, 1.134455E-05, -3.170917E-06, -5.280564E-06, 3.929943E-06, 0.000000E+00, 0.000000E+00],
  [8.207534E-06, -7.237486E-05, -2.301104E-04, -4.561973E-04, -5.269372E-04, -8.025881E-05, 3.658349E-04, -1.168757E-05, -4.770444E-04, -3.665348E-05, 3.867216E-04, -5.377277E-06, -2.315707E-04, 6.718203E-05, 9.066852E-05, -7.504721E-05, 4.565041E-07, 3.582637E-05, -2.703907E-05, 3.051136E-06, 1.190590E-05, -1.227230E-05, 4.845307E-06, 2.610680E-06, -6.258146E-06, 5.264847E-06, -5.810489E-07, -5.049803E-06, 7.597278E-06, -4.088228E-06, 0.000000E+00, 5.622345E-06, 5.478438E-05, 1.548911E-04, 2.310150E-04, 1.373812E-04, -1.395786E-04, -2.671186E-04, -2.489308E-06, 2.478393E-04, 7.040692E-05, -1.669403E-04, -6.394183E-05, 8.880039E-05, 3.282515E-05, -3.641600E-05, -1.381310E-05, 9.995022E-06, 9.827141E-06, -4.257824E-06, -8.087052E-06, 7.723859E-06, 1.070713E-06, -7.775302E-06, 6.430232E-06, 1.602234E-06, -7.663760E-06, 4.552414E-06, 3.929943E-06, -7.165743E-06, 0.000000E+00, 0.000000E+00],
  [0.000000E+00, 0.000000E+00, 0.000000E+00, 0.000000E+00, 0.000000E+00, 0.000000E+00, 0.000000E+00, 0.000000E+00, 0.000000E+00, 0.000000E+00, 0.000000E+00, 0.000000E+00, 0.000000E+00, 0.000000E+00, 0.000000E+00, 0.000000E+00, 0.000000E+00, 0.000000E+00, 0.000000E+00, 0.000000E+00, 0.000000E+00, 0.000000E+00, 0.000000E+00, 0.000000E+00, 0.000000E+00, 0.000000E+00, 0.000000E+00, 0.000000E+00, 0.000000E+00, 0.000000E+00, 0.000000E+00, 0.000000E+00, 0.000000E+00, 0.000000E+00, 0.000000E+00, 0.000000E+00, 0.000000E+00, 0.000000E+00, 0.000000E+00, 0.000000E+00, 0.000000E+00, 0.000000E+00, 0.000000E+00, 0.000000E+00, 0.000000E+00, 0.000000E+00, 0.000000E+00, 0.000000E+00, 0.000000E+00, 0.000000E+00, 0.000000E+00, 0.000000E+00, 0.000000E+00, 0.000000E+00, 0.000000E+00, 0.000000E+00, 0.000000E+00, 0.000000E+00, 0.000000E+00, 0.000000E+00, 0.000000E+00, 0.000000E+00],
  [0.000000E+00, 0.000000E+00, 0.000000E+00, 0.000000E+00, 0.000000E+00, 0.000000E+00, 0.000000E+00, 0.000000E+00, 0.000000E+00, 0.000000E+00, 0.000000E+00, 0.000000E+00, 0.000000E+00, 0.000000E+00, 0.000000E+00, 0.000000E+00, 0.000000E+00, 0.000000E+00, 0.000000E+00, 0.000000E+00, 0.000000E+00, 0.000000E+00, 0.000000E+00, 0.000000E+00, 0.000000E+00, 0.000000E+00, 0.000000E+00, 0.000000E+00, 0.000000E+00, 0.000000E+00, 0.000000E+00, 0.000000E+00, 0.000000E+00, 0.000000E+00, 0.000000E+00, 0.000000E+00, 0.000000E+00, 0.000000E+00, 0.000000E+00, 0.000000E+00, 0.000000E+00, 0.000000E+00, 0.000000E+00, 0.000000E+00, 0.000000E+00, 0.000000E+00, 0.000000E+00, 0.000000E+00, 0.000000E+00, 0.000000E+00, 0.000000E+00, 0.000000E+00, 0.000000E+00, 0.000000E+00, 0.000000E+00, 0.000000E+00, 0.000000E+00, 0.000000E+00, 0.000000E+00, 0.000000E+00, 0.000000E+00, 0.000000E+00]]

/-- `Daejeon16_public_v2.f90` 627-690. -/
def coup3dg : List (List Num) := coup3dg_1 ++ coup3dg_2 ++ coup3dg_3 ++ coup3dg_4

end Verif.Daejeon
