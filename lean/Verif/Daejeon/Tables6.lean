import Verif.Daejeon.Number

/-!
# Tables of Daejeon16: coup3fh

The `data` statements of `contrib/Daejeon16/Daejeon16_public_v2.f90`, line by line; a line of the source is a row here.
-/

namespace Verif.Daejeon

/-- `Daejeon16_public_v2.f90` 692-707. -/
def coup3fh_1 : List (List Num) := [
  [-2.855662E-01, -2.979304E-01, -1.684492E-01, -3.865994E-02, 1.238023E-02, 8.187058E-03, -1.522106E-03, -1.481422E-03, 4.328529E-04, 2.484305E-04, -1.460330E-04, -2.685142E-05, 4.438047E-05, -2.104583E-06, -1.617436E-05, 5.893754E-06, 8.124199E-06, -1.028973E-05, 1.588808E-06, 7.949930E-06, -9.558260E-06, 2.536550E-06, 6.189736E-06, -8.798687E-06, 3.501506E-06, 4.371797E-06, -7.608429E-06, 3.551993E-06, 3.898815E-06, 0.000000E+00, 0.000000E+00, 4.127038E-01, 2.522177E-01, 4.565550E-02, -2.867989E-02, -1.319061E-02, 4.775992E-03, 3.001043E-03, -1.279114E-03, -6.188830E-04, 4.307149E-04, 8.699779E-05, -1.442853E-04, 9.044053E-06, 4.735265E-05, -1.829421E-05, -1.646350E-05, 1.976556E-05, -1.892871E-06, -1.386232E-05, 1.440391E-05, -2.483817E-06, -9.674748E-06, 1.180724E-05, -3.657844E-06, -6.132132E-06, 8.513682E-06, -2.037320E-06, -6.451165E-06, 0.000000E+00, 0.000000E+00, 0.000000E+00],
  [-2.979304E-01, -4.942753E-01, -4.320263E-01, -1.999476E-01, -1.607549E-02, 2.977094E-02, 7.260020E-03, -5.493338E-03, -1.232813E-03, 1.392873E-03, 2.814000E-05, -3.720923E-04, 1.011325E-04, 7.897280E-05, -6.018777E-05, -5.761265E-06, 2.646812E-05, -8.518205E-06, -1.313905E-05, 1.867226E-05, -6.696302E-06, -1.287544E-05, 2.507880E-05, -1.889679E-05, -3.324727E-06, 2.557745E-05, -3.016529E-05, 1.248770E-05, 1.456039E-05, 0.000000E+00, 0.000000E+00, 2.167847E-01, 3.858069E-01, 2.124854E-01, -1.678135E-03, -5.065409E-02, -6.597686E-03, 1.296152E-02, 1.505012E-03, -3.835859E-03, 1.199208E-04, 1.153566E-03, -3.262318E-04, -2.814236E-04, 2.047698E-04, 2.218449E-05, -8.419337E-05, 2.716799E-05, 2.771877E-05, -3.425928E-05, 6.738718E-06, 2.541191E-05, -3.832621E-05, 2.180412E-05, 1.446489E-05, -4.431517E-05, 4.317405E-05, -8.853023E-06, -3.388138E-05, 0.000000E+00, 0.000000E+00, 0.000000E+00],
  [-1.684492E-01, -4.320263E-01, -5.698568E-01, -4.257949E-01, -1.474935E-01, 2.260702E-02, 3.400528E-02, -9.367064E-04, -7.197465E-03, 9.796151E-04, 1.576208E-03, -6.833646E-04, -2.449374E-04, 3.030894E-04, -2.519612E-05, -1.039767E-04, 4.775123E-05, 3.329688E-05, -4.701369E-05, 1.238865E-05, 2.146339E-05, -3.309600E-05, 2.613112E-05, -7.933079E-06, -1.572390E-05, 3.463250E-05, -3.560281E-05, 1.402575E-05, 1.844698E-05, 0.000000E+00, 0.000000E+00, 5.696161E-02, 2.021291E-01, 2.717035E-01, 1.054262E-01, -4.930241E-02, -4.367403E-02, 1.148922E-02, 1.403194E-02, -4.780876E-03, -3.985252E-03, 2.411085E-03, 7.707972E-04, -1.074957E-03, 8.188088E-05, 3.658542E-04, -1.776978E-04, -6.863719E-05, 1.099368E-04, -3.289829E-05, -2.972646E-05, 4.380761E-05, -3.383746E-05, 1.509056E-05, 1.537961E-05, -5.048567E-05, 6.224793E-05, -2.685949E-05, -4.282586E-05, 0.000000E+00, 0.000000E+00, 0.000000E+00],
  [-3.865994E-02, -1.999476E-01, -4.257949E-01, -4.985371E-01, -3.206520E-01, -7.036418E-02, 4.305131E-02, 2.351770E-02, -7.503582E-03, -4.670865E-03, 2.496453E-03, 4.764088E-04, -9.031296E-04, 2.371197E-04, 2.417522E-04, -2.203403E-04, -8.971276E-06, 1.207073E-04, -6.070172E-05, -3.774849E-05, 6.421196E-05, -2.187665E-05, -2.451949E-05, 3.284547E-05, -1.150465E-05, -9.283810E-06, 1.268966E-05, -2.980287E-06, -7.437306E-06, 0.000000E+00, 0.000000E+00, -6.611385E-03, 2.659096E-02, 1.124368E-01, 1.339228E-01, 1.866926E-02, -5.417738E-02, -1.583916E-02, 2.043261E-02, 4.865306E-03, -8.351997E-03, -1.783995E-04, 3.228284E-03, -9.237148E-04, -9.377378E-04, 7.365132E-04, 6.577853E-05, -3.353790E-04, 1.304249E-04, 8.465577E-05, -9.831015E-05, -5.991794E-08, 5.526135E-05, -1.984092E-05, -4.013237E-05, 4.356256E-05, 1.716699E-05, -7.326726E-05, 5.360437E-05, 0.000000E+00, 0.000000E+00, 0.000000E+00],
  [1.238023E-02, -1.607549E-02, -1.474935E-01, -3.206520E-01, -3.560258E-01, -1.997713E-01, -1.708388E-02, 4.136482E-02, 1.146221E-02, -8.274878E-03, -1.821879E-03, 2.026328E-03, -3.070411E-04, -3.641387E-04, 3.706757E-04, -9.472852E-05, -1.437768E-04, 1.493806E-04, -2.986771E-06, -1.009156E-04, 7.393117E-05, 2.377900E-05, -8.404035E-05, 5.898668E-05, 1.386638E-05, -6.648048E-05, 6.434062E-05, -2.061630E-05, -3.248206E-05, 0.000000E+00, 0.000000E+00, -1.117789E-02, -3.003323E-02, -2.254731E-02, 2.780559E-02, 4.587400E-02, -9.468308E-03, -3.097743E-02, 2.929743E-03, 1.434693E-02, -3.174411E-03, -5.495024E-03, 2.816211E-03, 1.393083E-03, -1.707302E-03, 1.249651E-04, 6.811314E-04, -3.989330E-04, -1.013392E-04, 2.622862E-04, -1.148273E-04, -8.463138E-05, 1.531558E-04, -6.537344E-05, -8.065428E-05, 1.505767E-04, -7.800500E-05, -7.849774E-05, 1.799066E-04, 0.000000E+00, 0.000000E+00, 0.000000E+00],
  [8.187058E-03, 2.977094E-02, 2.260702E-02, -7.036418E-02, -1.997713E-01, -2.244572E-01, -1.113447E-01, 7.871354E-03, 3.211674E-02, 3.909608E-03, -7.129133E-03, -6.059076E-04, 1.432884E-03, -2.188062E-04, -1.046220E-04, 1.146033E-04, -1.149786E-04, 3.257666E-05, 6.565666E-05, -8.087521E-05, 1.832891E-05, 5.162193E-05, -6.764907E-05, 2.156844E-05, 3.838664E-05, -5.548354E-05, 2.421478E-05, 9.489685E-06, -1.184288E-05, 0.000000E+00, 0.000000E+00, -1.588735E-03, -1.454005E-02, -3.824970E-02, -4.129073E-02, -5.509567E-03, 1.678395E-02, -6.720970E-03, -1.333879E-02, 5.797752E-03, 6.371502E-03, -4.352035E-03, -1.760029E-03, 2.604897E-03, -2.379526E-04, -1.054479E-03, 6.161027E-04, 1.366557E-04, -3.443673E-04, 1.575686E-04, 3.276817E-05, -9.397222E-05, 8.523747E-05, -5.193558E-05, -1.364285E-05, 9.370744E-05, -1.180585E-04, 3.625274E-05, 1.061903E-04, 0.000000E+00, 0.000000E+00, 0.000000E+00],
  [-1.522106E-03, 7.260020E-03, 3.400528E-02, 4.305131E-02, -1.708388E-02, -1.113447E-01, -1.317385E-01, -5.612363E-02, 1.680033E-02, 2.197155E-02, -9.499691E-04, -5.727972E-03, 3.492982E-04, 1.211013E-03, -2.557436E-04, -1.226202E-04, 6.212584E-05, -4.461090E-05, 3.154939E-05, 1.557173E-05, -3.735521E-05, 2.110973E-05, 4.425975E-06, -2.827072E-05, 4.088658E-05, -1.374260E-05, -5.246188E-05, 8.833849E-05, -2.222424E-05, 0.000000E+00, 0.000000E+00, 1.986712E-03, 3.838301E-03, -3.569606E-03, -2.252352E-02, -2.900798E-02, -6.577061E-03, 9.667041E-03, -3.261521E-03, -6.351428E-03, 4.338678E-03, 2.542327E-03, -3.178868E-03, -1.094978E-04, 1.590989E-03, -6.738090E-04, -4.180814E-04, 5.346381E-04, -8.869923E-05, -2.107298E-04, 1.569625E-04, 3.259026E-05, -1.099346E-04, 2.988088E-05, 8.046600E-05, -8.851259E-05, -1.442447E-05, 1.190081E-04, -1.124978E-04, 0.000000E+00, 0.000000E+00, 0.000000E+00],
  [-1.481422E-03, -5.493338E-03, -9.367064E-04, 2.351770E-02, 4.136482E-02, 7.871354E-03, -5.612363E-02, -7.224121E-02, -2.498647E-02, 1.635075E-02, 1.274782E-02, -3.226761E-03, -3.766483E-03, 9.695483E-04, 8.136889E-04, -3.147466E-04, -8.278380E-05, 3.649152E-05, -1.050687E-05, 4.549801E-05, -2.071799E-05, -3.193313E-05, 3.095661E-05, 3.603148E-06, -9.883839E-07, -2.948081E-05, 6.116868E-06, 8.328636E-05, -1.208916E-04, 0.000000E+00, 0.000000E+00, 5.755634E-04, 4.059596E-03, 9.896587E-03, 8.776741E-03, -5.084657E-03, -1.473408E-02, -4.232435E-03, 5.460680E-03, -1.849942E-03, -3.029017E-03, 2.928862E-03, 7.777829E-04, -2.017911E-03, 4.741188E-04, 7.908367E-04, -6.442577E-04, -1.011258E-05, 3.107741E-04, -2.082155E-04, 6.813929E-06, 1.062755E-04, -1.145351E-04, 5.262627E-05, 4.173953E-05, -1.108059E-04, 9.411958E-05, 1.069159E-05, -1.235753E-04, 0.000000E+00, 0.000000E+00, 0.000000E+00],
  [4.328529E-04, -1.232813E-03, -7.197465E-03, -7.503582E-03, 1.146221E-02, 3.211674E-02, 1.680033E-02, -2.498647E-02, -3.807950E-02, -1.030199E-02, 1.214741E-02, 6.471617E-03, -3.425024E-03, -2.072787E-03, 1.103747E-03, 4.408836E-04, -3.333631E-04, -4.787535E-05, 6.312426E-05, 1.772584E-05, -2.215651E-06, -4.497484E-05, 2.209783E-05, 5.635696E-05, -7.646549E-05, -2.173296E-05, 1.323063E-04, -8.950204E-05, -1.047526E-04, 0.000000E+00, 0.000000E+00, -4.559291E-04, -7.686725E-04, 1.727683E-03, 7.892473E-03, 1.004871E-02, 1.098916E-03, -7.793507E-03, -2.904125E-03, 3.293077E-03, -8.908996E-04, -1.506175E-03, 1.765492E-03, 9.236244E-05, -1.150160E-03, 5.287012E-04, 3.402255E-04, -4.565050E-04, 8.309859E-05, 1.800639E-04, -1.392133E-04, -2.106196E-05, 8.513814E-05, -1.898141E-05, -6.335400E-05, 5.650188E-05, 2.916458E-05, -9.504692E-05, 6.575802E-05, 0.000000E+00, 0.000000E+00, 0.000000E+00],
  [2.484305E-04, 1.392873E-03, 9.796151E-04, -4.670865E-03, -8.274878E-03, 3.909608E-03, 2.197155E-02, 1.635075E-02, -1.030199E-02, -2.021167E-02, -4.037558E-03, 8.007650E-03, 2.881628E-03, -2.750642E-03, -9.011370E-04, 9.355478E-04, 1.273001E-04, -2.723408E-04, 3.074851E-05, 5.445486E-05, -2.766881E-05, -1.253158E-05, 3.848616E-05, -4.982365E-06, -7.625563E-05, 8.506307E-05, 4.866313E-05, -1.912052E-04, 1.311450E-04, 0.000000E+00, 0.000000E+00, -1.391650E-04, -1.105803E-03, -2.915323E-03, -2.727936E-03, 1.998143E-03, 6.098362E-03, 2.126753E-03, -4.008659E-03, -1.739136E-03, 2.046900E-03, -4.973165E-04, -8.077482E-04, 1.045212E-03, -1.258353E-04, -5.995765E-04, 4.304754E-04, 6.304446E-05, -2.633330E-04, 1.532417E-04, 1.329258E-05, -9.435159E-05, 9.024894E-05, -3.513589E-05, -3.872826E-05, 8.532391E-05, -6.394693E-05, -1.487392E-05, 8.589943E-05, 0.000000E+00, 0.000000E+00, 0.000000E+00],
  [-1.460330E-04, 2.814000E-05, 1.576208E-03, 2.496453E-03, -1.821879E-03, -7.129133E-03, -9.499691E-04, 1.274782E-02, 1.214741E-02, -4.037558E-03, -1.091787E-02, -1.516712E-03, 4.927155E-03, 1.106182E-03, -1.900850E-03, -2.789955E-04, 6.593142E-04, -1.459980E-05, -1.730928E-04, 2.582525E-05, 1.364206E-05, 3.221497E-05, 5.087956E-06, -8.652113E-05, 5.371273E-05, 9.456694E-05, -1.599874E-04, 9.109094E-06, 2.109216E-04, 0.000000E+00, 0.000000E+00, 1.371463E-04, 3.076954E-04, -3.118075E-04, -2.360522E-03, -3.609875E-03, -7.768587E-04, 3.316813E-03, 2.044993E-03, -2.037623E-03, -1.103112E-03, 1.252558E-03, -2.892076E-04, -4.554114E-04, 6.275041E-04, -1.511497E-04, -3.272328E-04, 3.052197E-04, 3.101163E-06, -1.754517E-04, 1.042737E-04, 3.806669E-05, -8.250660E-05, 1.914952E-05, 5.106750E-05, -4.834929E-05, -1.287536E-05, 5.980696E-05, -4.536588E-05, 0.000000E+00, 0.000000E+00, 0.000000E+00],
  [-2.685142E-05, -3.720923E-04, -6.833646E-04, 4.764088E-04, 2.026328E-03, -6.059076E-04, -5.727972E-03, -3.226761E-03, 6.471617E-03, 8.007650E-03, -1.516712E-03, -6.041403E-03, -5.167159E-04, 2.937750E-03, 3.026254E-04, -1.215299E-03, 2.157743E-05, 4.335069E-04, -9.766993E-05, -1.312931E-04, 7.582871E-05, 4.817480E-05, -7.970429E-05, -1.277643E-05, 1.185737E-04, -7.821719E-05, -1.017201E-04, 2.052729E-04, -6.404368E-05, 0.000000E+00, 0.000000E+00, 2.181431E-05, 2.957360E-04, 9.710853E-04, 1.230566E-03, -1.884932E-04, -2.114142E-03, -1.262929E-03, 1.608058E-03, 1.488409E-03, -1.060234E-03, -6.971805E-04, 7.714456E-04, -1.704037E-04, -2.601718E-04, 3.586707E-04, -1.275732E-04, -1.380575E-04, 1.786795E-04, -5.668617E-05, -4.609204E-05, 6.719867E-05, -4.461380E-05, 1.143276E-05, 2.351397E-05, -4.527549E-05, 3.503980E-05, 2.352336E-06, -3.654407E-05, 0.000000E+00, 0.000000E+00, 0.000000E+00],
  [4.438047E-05, 1.011325E-04, -2.449374E-04, -9.031296E-04, -3.070411E-04, 1.432884E-03, 3.492982E-04, -3.766483E-03, -3.425024E-03, 2.881628E-03, 4.927155E-03, -5.167159E-04, -3.386471E-03, -1.431885E-04, 1.707182E-03, 2.860584E-06, -7.126053E-04, 1.054010E-04, 2.212828E-04, -7.762173E-05, -1.858744E-05, -4.600502E-06, -2.825617E-05, 8.524107E-05, -2.217760E-05, -1.183901E-04, 1.338568E-04, 4.025736E-05, -2.079162E-04, 0.000000E+00, 0.000000E+00, -4.604544E-05, -1.566281E-04, -9.244138E-05, 5.632309E-04, 1.327926E-03, 7.385508E-04, -9.939445E-04, -1.156837E-03, 6.762650E-04, 1.007523E-03, -5.494641E-04, -4.413582E-04, 4.788369E-04, -1.177199E-04, -1.532106E-04, 2.333887E-04, -1.062293E-04, -8.165390E-05, 1.393237E-04, -5.028528E-05, -5.483035E-05, 7.311774E-05, -1.643926E-05, -3.874946E-05, 4.213803E-05, -5.830055E-06, -2.750070E-05, 3.207027E-05, 0.000000E+00, 0.000000E+00, 0.000000E+00],
  [-2.104583E-06, 7.897280E-05, 3.030894E-04, 2.371197E-04, -3.641387E-04, -2.188062E-04, 1.211013E-03, 9.695483E-04, -2.072787E-03, -2.750642E-03, 1.106182E-03, 2.937750E-03, -1.431885E-04, -1.927313E-03, 8.137406E-07, 9.997730E-04, -9.923232E-05, -4.355467E-04, 1.292475E-04, 1.625548E-04, -1.039785E-04, -6.350675E-05, 9.772508E-05, 1.741117E-05, -1.203925E-04, 6.285800E-05, 1.018326E-04, -1.659949E-04, 2.719705E-05, 0.000000E+00, 0.000000E+00, 1.382047E-06, -6.280290E-05, -3.065665E-04, -5.749871E-04, -2.872679E-04, 5.673373E-04, 7.309765E-04, -3.328703E-04, -8.191238E-04, 2.337117E-04, 6.495633E-04, -2.850943E-04, -2.888119E-04, 2.989477E-04, -6.441426E-05, -9.831147E-05, 1.282991E-04, -5.516269E-05, -3.108344E-05, 5.412040E-05, -2.538058E-05, -2.145512E-06, 8.191041E-06, -6.408025E-06, 7.647450E-06, -8.912858E-06, 6.059075E-06, 1.726544E-08, 0.000000E+00, 0.000000E+00, 0.000000E+00],
  [-1.617436E-05, -6.018777E-05, -2.519612E-05, 2.417522E-04, 3.706757E-04, -1.046220E-04, -2.557436E-04, 8.136889E-04, 1.103747E-03, -9.011370E-04, -1.900850E-03, 3.026254E-04, 1.707182E-03, 8.137406E-07, -1.085508E-03, 3.436486E-05, 5.511726E-04, -9.891328E-05, -2.059739E-04, 8.228645E-05, 2.710858E-05, -1.079194E-05, 2.643820E-05, -6.565367E-05, 1.158999E-05, 9.681974E-05, -9.958151E-05, -3.636690E-05, 1.514127E-04, 0.000000E+00, 0.000000E+00, 1.902715E-05, 7.866388E-05, 1.263177E-04, -3.424611E-05, -4.112523E-04, -4.702514E-04, 1.258679E-04, 5.402284E-04, -1.978294E-05, -5.249491E-04, 3.818303E-05, 4.053974E-04, -1.449023E-04, -1.792375E-04, 1.829249E-04, -5.169945E-05, -4.734290E-05, 8.523003E-05, -5.912490E-05, -4.901241E-06, 4.969330E-05, -4.290762E-05, 4.839296E-06, 2.425956E-05, -2.620148E-05, 1.100739E-05, 4.876397E-06, -1.464194E-05, 0.000000E+00, 0.000000E+00, 0.000000E+00],
  [5.893754E-06, -5.761265E-06, -1.039767E-04, -2.203403E-04, -9.472852E-05, 1.146033E-04, -1.226202E-04, -3.147466E-04, 4.408836E-04, 9.355478E-04, -2.789955E-04, -1.215299E-03, 2.860584E-06, 9.997730E-04, 3.436486E-05, -6.427815E-04, 4.617662E-05, 3.480060E-04, -9.793617E-05, -1.609846E-04, 1.026580E-04, 6.548849E-05, -1.000376E-04, -8.836113E-06, 1.020403E-04, -5.719027E-05, -7.027369E-05, 1.197133E-04, -2.545124E-05, 0.000000E+00, 0.000000E+00, -7.585739E-06, -5.381178E-06, 6.702479E-05, 2.298065E-04, 2.657823E-04, -3.555771E-05, -3.226248E-04, -7.586407E-05, 3.191281E-04, 9.109134E-05, -3.094621E-04, -3.267225E-05, 2.525516E-04, -7.495435E-05, -1.210410E-04, 1.224198E-04, -2.923923E-05, -4.197570E-05, 5.601018E-05, -2.533169E-05, -1.273075E-05, 2.610550E-05, -1.360521E-05, -4.954528E-06, 1.346385E-05, -8.638230E-06, -3.943748E-06, 1.414918E-05, 0.000000E+00, 0.000000E+00, 0.000000E+00]]

/-- `Daejeon16_public_v2.f90` 708-723. -/
def coup3fh_2 : List (List Num) := [
  [8.124199E-06, 2.646812E-05, 4.775123E-05, -8.971276E-06, -1.437768E-04, -1.149786E-04, 6.212584E-05, -8.278380E-05, -3.333631E-04, 1.273001E-04, 6.593142E-04, 2.157743E-05, -7.126053E-04, -9.923232E-05, 5.511726E-04, 4.617662E-05, -3.389999E-04, 2.438678E-05, 1.575450E-04, -4.147249E-05, -3.886130E-05, 6.380029E-06, -4.758336E-06, 4.177398E-05, -1.805493E-05, -5.635795E-05, 7.030885E-05, 1.014067E-05, -8.818509E-05, 0.000000E+00, 0.000000E+00, -8.399892E-06, -3.406170E-05, -7.506860E-05, -7.457760E-05, 5.727927E-05, 2.063440E-04, 9.204962E-05, -1.753675E-04, -1.227149E-04, 1.703509E-04, 1.089241E-04, -1.738010E-04, -5.103675E-05, 1.520760E-04, -3.334886E-05, -7.534556E-05, 6.967465E-05, -1.826132E-05, -1.650988E-05, 2.683641E-05, -1.993841E-05, 4.257142E-06, 7.841812E-06, -9.077265E-06, 4.553221E-06, -3.024410E-06, 4.574613E-06, -2.064132E-06, 0.000000E+00, 0.000000E+00, 0.000000E+00],
  [-1.028973E-05, -8.518205E-06, 3.329688E-05, 1.207073E-04, 1.493806E-04, 3.257666E-05, -4.461090E-05, 3.649152E-05, -4.787535E-05, -2.723408E-04, -1.459980E-05, 4.335069E-04, 1.054010E-04, -4.355467E-04, -9.891328E-05, 3.480060E-04, 2.438678E-05, -2.366740E-04, 4.433349E-05, 1.360311E-04, -7.899973E-05, -5.908226E-05, 8.748188E-05, -3.799283E-07, -7.668648E-05, 5.188027E-05, 3.655156E-05, -7.950752E-05, 2.988192E-05, 0.000000E+00, 0.000000E+00, 1.239308E-05, 2.465108E-05, 6.137243E-06, -6.446532E-05, -1.381296E-04, -8.693648E-05, 8.189093E-05, 1.155404E-04, -6.090622E-05, -1.123381E-04, 7.229370E-05, 9.530086E-05, -9.200710E-05, -4.886880E-05, 9.429100E-05, -1.777730E-05, -4.970234E-05, 4.957440E-05, -1.571076E-05, -1.241048E-05, 2.203567E-05, -1.660527E-05, 4.623924E-06, 6.663272E-06, -1.310289E-05, 1.186235E-05, -2.353325E-06, -1.006994E-05, 0.000000E+00, 0.000000E+00, 0.000000E+00],
  [1.588808E-06, -1.313905E-05, -4.701369E-05, -6.070172E-05, -2.986771E-06, 6.565666E-05, 3.154939E-05, -1.050687E-05, 6.312426E-05, 3.074851E-05, -1.730928E-04, -9.766993E-05, 2.212828E-04, 1.292475E-04, -2.059739E-04, -9.793617E-05, 1.575450E-04, 4.433349E-05, -9.706730E-05, -1.155102E-05, 4.572423E-05, 9.774235E-06, -2.200025E-05, -2.077157E-05, 2.897918E-05, 1.644611E-05, -4.483431E-05, 1.340235E-05, 3.645420E-05, 0.000000E+00, 0.000000E+00, -5.025736E-06, 1.514996E-06, 3.318988E-05, 6.565372E-05, 3.941353E-05, -4.704297E-05, -7.651649E-05, 1.422726E-05, 7.412090E-05, -1.140588E-05, -7.149902E-05, 2.330766E-05, 6.424836E-05, -4.283896E-05, -3.809284E-05, 5.421602E-05, -5.340267E-06, -3.272927E-05, 2.995507E-05, -8.147180E-06, -9.232631E-06, 1.468474E-05, -9.049202E-06, -2.024487E-06, 9.077595E-06, -5.970328E-06, -3.447186E-06, 8.987252E-06, 0.000000E+00, 0.000000E+00, 0.000000E+00],
  [7.949930E-06, 1.867226E-05, 1.238865E-05, -3.774849E-05, -1.009156E-04, -8.087521E-05, 1.557173E-05, 4.549801E-05, 1.772584E-05, 5.445486E-05, 2.582525E-05, -1.312931E-04, -7.762173E-05, 1.625548E-04, 8.228645E-05, -1.609846E-04, -4.147249E-05, 1.360311E-04, -1.155102E-05, -9.368578E-05, 4.927647E-05, 4.432124E-05, -6.254450E-05, 2.924116E-06, 5.048026E-05, -3.826454E-05, -1.612304E-05, 4.689219E-05, -2.422716E-05, 0.000000E+00, 0.000000E+00, -4.953439E-06, -1.851565E-05, -2.859536E-05, -8.703684E-06, 4.739893E-05, 7.444753E-05, 7.253733E-06, -6.474429E-05, -1.689545E-05, 5.575765E-05, 8.256724E-06, -5.297931E-05, 6.097681E-06, 4.739865E-05, -2.444183E-05, -2.873238E-05, 3.601089E-05, -2.225968E-06, -2.305937E-05, 1.947939E-05, -3.060688E-06, -6.291380E-06, 4.584778E-06, -2.249947E-07, 7.348883E-07, -4.660705E-06, 5.198592E-06, 5.038636E-07, 0.000000E+00, 0.000000E+00, 0.000000E+00],
  [-9.558260E-06, -6.696302E-06, 2.146339E-05, 6.421196E-05, 7.393117E-05, 1.832891E-05, -3.735521E-05, -2.071799E-05, -2.215651E-06, -2.766881E-05, 1.364206E-05, 7.582871E-05, -1.858744E-05, -1.039785E-04, 2.710858E-05, 1.026580E-04, -3.886130E-05, -7.899973E-05, 4.572423E-05, 4.927647E-05, -4.468576E-05, -2.539222E-05, 4.096145E-05, 6.839730E-06, -3.661153E-05, 1.155854E-05, 2.543465E-05, -2.655222E-05, -2.948545E-06, 0.000000E+00, 0.000000E+00, 9.595296E-06, 1.744286E-05, 4.830321E-06, -2.423433E-05, -4.507546E-05, -2.764492E-05, 2.325458E-05, 3.567611E-05, -1.443219E-05, -3.121531E-05, 1.684742E-05, 2.442618E-05, -2.341404E-05, -1.413594E-05, 2.829198E-05, -2.404673E-06, -2.222235E-05, 1.701483E-05, 2.615131E-06, -1.266275E-05, 1.017520E-05, -4.570990E-06, 4.573505E-07, 3.429443E-06, -6.760137E-06, 6.282889E-06, -9.366257E-07, -5.413926E-06, 0.000000E+00, 0.000000E+00, 0.000000E+00],
  [2.536550E-06, -1.287544E-05, -3.309600E-05, -2.187665E-05, 2.377900E-05, 5.162193E-05, 2.110973E-05, -3.193313E-05, -4.497484E-05, -1.253158E-05, 3.221497E-05, 4.817480E-05, -4.600502E-06, -6.350675E-05, -1.079194E-05, 6.548849E-05, 6.380029E-06, -5.908226E-05, 9.774235E-06, 4.432124E-05, -2.539222E-05, -2.304256E-05, 3.181797E-05, 5.326115E-07, -2.621468E-05, 1.672031E-05, 1.013670E-05, -2.132181E-05, 8.035002E-06, 0.000000E+00, 0.000000E+00, -6.789666E-06, -2.859348E-06, 1.877223E-05, 2.340302E-05, -5.544458E-06, -2.680180E-05, -1.027044E-05, 1.514226E-05, 9.915245E-06, -1.048102E-05, -5.829556E-06, 1.018871E-05, 2.999865E-06, -1.132459E-05, -3.712375E-07, 1.306705E-05, -6.011336E-06, -1.023647E-05, 1.360530E-05, -1.608190E-06, -1.059083E-05, 1.121032E-05, -2.449331E-06, -5.574338E-06, 6.140066E-06, -9.769527E-07, -3.566578E-06, 3.443866E-06, 0.000000E+00, 0.000000E+00, 0.000000E+00],
  [6.189736E-06, 2.507880E-05, 2.613112E-05, -2.451949E-05, -8.404035E-05, -6.764907E-05, 4.425975E-06, 3.095661E-05, 2.209783E-05, 3.848616E-05, 5.087956E-06, -7.970429E-05, -2.825617E-05, 9.772508E-05, 2.643820E-05, -1.000376E-04, -4.758336E-06, 8.748188E-05, -2.200025E-05, -6.254450E-05, 4.096145E-05, 3.181797E-05, -4.684267E-05, -1.642480E-06, 3.879740E-05, -2.242635E-05, -1.707285E-05, 3.095937E-05, -9.884425E-06, 0.000000E+00, 0.000000E+00, 3.409402E-07, -1.235022E-05, -3.116979E-05, -1.425688E-05, 3.674384E-05, 4.912060E-05, -4.006266E-06, -4.033856E-05, -2.305462E-06, 3.243273E-05, -1.507626E-06, -2.673076E-05, 7.210220E-06, 2.057745E-05, -1.244059E-05, -1.282390E-05, 1.609719E-05, 2.332951E-06, -1.439696E-05, 7.665827E-06, 5.134822E-06, -8.853364E-06, 3.009450E-06, 2.810176E-06, -2.362670E-06, -1.770887E-06, 3.491323E-06, -5.878068E-07, 0.000000E+00, 0.000000E+00, 0.000000E+00],
  [-8.798687E-06, -1.889679E-05, -7.933079E-06, 3.284547E-05, 5.898668E-05, 2.156844E-05, -2.827072E-05, 3.603148E-06, 5.635696E-05, -4.982365E-06, -8.652113E-05, -1.277643E-05, 8.524107E-05, 1.741117E-05, -6.565367E-05, -8.836113E-06, 4.177398E-05, -3.799283E-07, -2.077157E-05, 2.924116E-06, 6.839730E-06, 5.326115E-07, -1.642480E-06, -5.320464E-06, 4.008627E-06, 6.205779E-06, -9.581132E-06, -9.085127E-08, 1.066269E-05, 0.000000E+00, 0.000000E+00, 4.179733E-06, 1.576659E-05, 2.416282E-05, 9.168410E-06, -2.140329E-05, -3.024231E-05, -2.014364E-06, 2.461016E-05, 8.426213E-06, -2.020244E-05, -8.530211E-06, 1.687058E-05, 5.002860E-06, -1.370582E-05, 6.845543E-07, 8.794663E-06, -5.288801E-06, -1.378516E-06, 4.173963E-06, -3.648802E-06, 1.507211E-06, 1.185481E-06, -2.877315E-06, 2.563989E-06, -1.096207E-06, 6.081504E-08, 1.572135E-07, -4.130174E-07, 0.000000E+00, 0.000000E+00, 0.000000E+00],
  [3.501506E-06, -3.324727E-06, -1.572390E-05, -1.150465E-05, 1.386638E-05, 3.838664E-05, 4.088658E-05, -9.883839E-07, -7.646549E-05, -7.625563E-05, 5.371273E-05, 1.185737E-04, -2.217760E-05, -1.203925E-04, 1.158999E-05, 1.020403E-04, -1.805493E-05, -7.668648E-05, 2.897918E-05, 5.048026E-05, -3.661153E-05, -2.621468E-05, 3.879740E-05, 4.008627E-06, -3.413534E-05, 1.580198E-05, 1.957154E-05, -2.726552E-05, 3.320444E-06, 0.000000E+00, 0.000000E+00, -4.185210E-06, -5.109075E-06, 1.970310E-06, -2.127200E-08, -1.665884E-05, -1.451699E-05, 1.291718E-05, 1.583317E-05, -1.349245E-05, -1.465715E-05, 1.553351E-05, 1.150659E-05, -1.571185E-05, -5.752780E-06, 1.265199E-05, 7.531353E-07, -7.863295E-06, 7.798271E-07, 5.236048E-06, -1.508286E-06, -4.575880E-06, 4.254631E-06, 1.311151E-06, -4.981014E-06, 3.148936E-06, 1.172004E-06, -3.071376E-06, 1.237096E-06, 0.000000E+00, 0.000000E+00, 0.000000E+00],
  [4.371797E-06, 2.557745E-05, 3.463250E-05, -9.283810E-06, -6.648048E-05, -5.548354E-05, -1.374260E-05, -2.948081E-05, -2.173296E-05, 8.506307E-05, 9.456694E-05, -7.821719E-05, -1.183901E-04, 6.285800E-05, 9.681974E-05, -5.719027E-05, -5.635795E-05, 5.188027E-05, 1.644611E-05, -3.826454E-05, 1.155854E-05, 1.672031E-05, -2.242635E-05, 6.205779E-06, 1.580198E-05, -2.108980E-05, 3.031780E-06, 1.877155E-05, -2.022421E-05, 0.000000E+00, 0.000000E+00, 1.506477E-06, -9.649521E-06, -3.193139E-05, -1.961718E-05, 3.494022E-05, 5.190834E-05, -5.392787E-06, -4.509616E-05, -1.257831E-06, 3.878911E-05, -2.858426E-08, -3.141821E-05, 4.532799E-06, 2.147984E-05, -8.255476E-06, -1.121665E-05, 8.879150E-06, 3.274353E-06, -7.131493E-06, 2.021008E-06, 3.657967E-06, -4.536053E-06, 9.829220E-07, 3.022182E-06, -3.595316E-06, 5.321933E-07, 2.603108E-06, -2.420673E-06, 0.000000E+00, 0.000000E+00, 0.000000E+00],
  [-7.608429E-06, -3.016529E-05, -3.560281E-05, 1.268966E-05, 6.434062E-05, 2.421478E-05, -5.246188E-05, 6.116868E-06, 1.323063E-04, 4.866313E-05, -1.599874E-04, -1.017201E-04, 1.338568E-04, 1.018326E-04, -9.958151E-05, -7.027369E-05, 7.030885E-05, 3.655156E-05, -4.483431E-05, -1.612304E-05, 2.543465E-05, 1.013670E-05, -1.707285E-05, -9.581132E-06, 1.957154E-05, 3.031780E-06, -2.318883E-05, 1.239232E-05, 1.454124E-05, 0.000000E+00, 0.000000E+00, 1.952531E-07, 1.486188E-05, 4.260184E-05, 3.767079E-05, -1.398484E-05, -4.941945E-05, -1.906351E-05, 3.316930E-05, 2.717703E-05, -2.395558E-05, -2.585314E-05, 1.926599E-05, 1.809562E-05, -1.627670E-05, -8.152865E-06, 1.229514E-05, 3.476463E-08, -6.379658E-06, 3.490208E-06, 2.760740E-07, -1.717102E-06, 2.268012E-06, -1.957296E-06, -6.500847E-08, 2.434717E-06, -2.546553E-06, 8.432565E-08, 2.259191E-06, 0.000000E+00, 0.000000E+00, 0.000000E+00],
  [3.551993E-06, 1.248770E-05, 1.402575E-05, -2.980287E-06, -2.061630E-05, 9.489685E-06, 8.833849E-05, 8.328636E-05, -8.950204E-05, -1.912052E-04, 9.109094E-06, 2.052729E-04, 4.025736E-05, -1.659949E-04, -3.636690E-05, 1.197133E-04, 1.014067E-05, -7.950752E-05, 1.340235E-05, 4.689219E-05, -2.655222E-05, -2.132181E-05, 3.095937E-05, -9.085127E-08, -2.726552E-05, 1.877155E-05, 1.239232E-05, -2.809072E-05, 1.120711E-05, 0.000000E+00, 0.000000E+00, 8.188786E-07, -5.364838E-06, -2.182849E-05, -3.209882E-05, -2.506308E-05, 2.246583E-06, 3.246175E-05, 1.583306E-05, -3.251733E-05, -2.150359E-05, 2.981178E-05, 1.675695E-05, -2.464013E-05, -6.550546E-06, 1.692377E-05, -2.051604E-06, -7.594024E-06, 4.421717E-06, 5.960147E-07, -1.690047E-06, 7.824154E-07, -4.142865E-07, 8.905040E-07, -9.470904E-07, -3.656049E-07, 2.065498E-06, -2.064877E-06, -1.255443E-07, 0.000000E+00, 0.000000E+00, 0.000000E+00],
  [3.898815E-06, 1.456039E-05, 1.844698E-05, -7.437306E-06, -3.248206E-05, -1.184288E-05, -2.222424E-05, -1.208916E-04, -1.047526E-04, 1.311450E-04, 2.109216E-04, -6.404368E-05, -2.079162E-04, 2.719705E-05, 1.514127E-04, -2.545124E-05, -8.818509E-05, 2.988192E-05, 3.645420E-05, -2.422716E-05, -2.948545E-06, 8.035002E-06, -9.884425E-06, 1.066269E-05, 3.320444E-06, -2.022421E-05, 1.454124E-05, 1.120711E-05, -2.634204E-05, 0.000000E+00, 0.000000E+00, -2.931279E-06, -1.064874E-05, -1.820763E-05, -4.439033E-06, 4.071684E-05, 5.571525E-05, -1.054510E-05, -6.013671E-05, -1.410392E-07, 5.430054E-05, 6.450984E-07, -4.097253E-05, 4.660598E-06, 2.449294E-05, -8.670368E-06, -9.632822E-06, 7.249796E-06, 7.658467E-07, -2.760866E-06, 1.396937E-06, -1.313985E-07, -7.813784E-07, 7.590019E-07, 5.660299E-07, -1.471454E-06, 2.422545E-07, 1.943372E-06, -2.232447E-06, 0.000000E+00, 0.000000E+00, 0.000000E+00],
  [0.000000E+00, 0.000000E+00, 0.000000E+00, 0.000000E+00, 0.000000E+00, 0.000000E+00, 0.000000E+00, 0.000000E+00, 0.000000E+00, 0.000000E+00, 0.000000E+00, 0.000000E+00, 0.000000E+00, 0.000000E+00, 0.000000E+00, 0.000000E+00, 0.000000E+00, 0.000000E+00, 0.000000E+00, 0.000000E+00, 0.000000E+00, 0.000000E+00, 0.000000E+00, 0.000000E+00, 0.000000E+00, 0.000000E+00, 0.000000E+00, 0.000000E+00, 0.000000E+00, 0.000000E+00, 0.000000E+00, 0.000000E+00, 0.000000E+00, 0.000000E+00, 0.000000E+00, 0.000000E+00, 0.000000E+00, 0.000000E+00, 0.000000E+00, 0.000000E+00, 0.000000E+00, 0.000000E+00, 0.000000E+00, 0.000000E+00, 0.000000E+00, 0.000000E+00, 0.000000E+00, 0.000000E+00, 0.000000E+00, 0.000000E+00, 0.000000E+00, 0.000000E+00, 0.000000E+00, 0.000000E+00, 0.000000E+00, 0.000000E+00, 0.000000E+00, 0.000000E+00, 0.000000E+00, 0.000000E+00, 0.000000E+00, 0.000000E+00],
  [0.000000E+00, 0.000000E+00, 0.000000E+00, 0.000000E+00, 0.000000E+00, 0.000000E+00, 0.000000E+00, 0.000000E+00, 0.000000E+00, 0.000000E+00, 0.000000E+00, 0.000000E+00, 0.000000E+00, 0.000000E+00, 0.000000E+00, 0.000000E+00, 0.000000E+00, 0.000000E+00, 0.000000E+00, 0.000000E+00, 0.000000E+00, 0.000000E+00, 0.000000E+00, 0.000000E+00, 0.000000E+00, 0.000000E+00, 0.000000E+00, 0.000000E+00, 0.000000E+00, 0.000000E+00, 0.000000E+00, 0.000000E+00, 0.000000E+00, 0.000000E+00, 0.000000E+00, 0.000000E+00, 0.000000E+00, 0.000000E+00, 0.000000E+00, 0.000000E+00, 0.000000E+00, 0.000000E+00, 0.000000E+00, 0.000000E+00, 0.000000E+00, 0.000000E+00, 0.000000E+00, 0.000000E+00, 0.000000E+00, 0.000000E+00, 0.000000E+00, 0.000000E+00, 0.000000E+00, 0.000000E+00, 0.000000E+00, 0.000000E+00, 0.000000E+00, 0.000000E+00, 0.000000E+00, 0.000000E+00, 0.000000E+00, 0.000000E+00],
  [4.127038E-01, 2.167847E-01, 5.696161E-02, -6.611385E-03, -1.117789E-02, -1.588735E-03, 1.986712E-03, 5.755634E-04, -4.559291E-04, -1.391650E-04, 1.371463E-04, 2.181431E-05, -4.604544E-05, 1.382047E-06, 1.902715E-05, -7.585739E-06, -8.399892E-06, 1.239308E-05, -5.025736E-06, -4.953439E-06, 9.595296E-06, -6.789666E-06, 3.409402E-07, 4.179733E-06, -4.185210E-06, 1.506477E-06, 1.952531E-07, 8.188786E-07, -2.931279E-06, 0.000000E+00, 0.000000E+00, -1.016188E-01, -6.660293E-02, -1.713725E-02, 5.114642E-03, 4.305078E-03, -4.876388E-04, -1.011301E-03, 1.272236E-04, 2.554877E-04, -6.624561E-05, -6.322053E-05, 3.416592E-05, 1.204760E-05, -1.619437E-05, 1.286248E-06, 6.920846E-06, -4.786355E-06, -8.447822E-07, 4.123056E-06, -3.251498E-06, -2.316953E-07, 3.180748E-06, -3.178450E-06, 3.875924E-07, 2.632388E-06, -3.164388E-06, 7.197524E-07, 2.530536E-06, 0.000000E+00, 0.000000E+00, 0.000000E+00]]

/-- `Daejeon16_public_v2.f90` 724-739. -/
def coup3fh_3 : List (List Num) := [
  [2.522177E-01, 3.858069E-01, 2.021291E-01, 2.659096E-02, -3.003323E-02, -1.454005E-02, 3.838301E-03, 4.059596E-03, -7.686725E-04, -1.105803E-03, 3.076954E-04, 2.957360E-04, -1.566281E-04, -6.280290E-05, 7.866388E-05, -5.381178E-06, -3.406170E-05, 2.465108E-05, 1.514996E-06, -1.851565E-05, 1.744286E-05, -2.859348E-06, -1.235022E-05, 1.576659E-05, -5.109075E-06, -9.649521E-06, 1.486188E-05, -5.364838E-06, -1.064874E-05, 0.000000E+00, 0.000000E+00, -6.660293E-02, -1.071043E-01, -6.161337E-02, -4.628799E-03, 1.264377E-02, 3.393911E-03, -3.000622E-03, -9.682564E-04, 9.270562E-04, 1.810302E-04, -3.248285E-04, 1.614041E-05, 1.051024E-04, -3.975762E-05, -2.330069E-05, 2.439030E-05, -1.391766E-06, -1.085765E-05, 8.381792E-06, -1.099907E-07, -6.992400E-06, 9.398491E-06, -5.479397E-06, -3.250292E-06, 1.120876E-05, -1.190305E-05, 3.502925E-06, 8.521585E-06, 0.000000E+00, 0.000000E+00, 0.000000E+00],
  [4.565550E-02, 2.124854E-01, 2.717035E-01, 1.124368E-01, -2.254731E-02, -3.824970E-02, -3.569606E-03, 9.896587E-03, 1.727683E-03, -2.915323E-03, -3.118075E-04, 9.710853E-04, -9.244138E-05, -3.065665E-04, 1.263177E-04, 6.702479E-05, -7.506860E-05, 6.137243E-06, 3.318988E-05, -2.859536E-05, 4.830321E-06, 1.877223E-05, -3.116979E-05, 2.416282E-05, 1.970310E-06, -3.193139E-05, 4.260184E-05, -2.182849E-05, -1.820763E-05, 0.000000E+00, 0.000000E+00, -1.713725E-02, -6.161337E-02, -7.808681E-02, -3.254975E-02, 1.021012E-02, 1.206814E-02, -1.650165E-03, -3.828421E-03, 7.274342E-04, 1.183828E-03, -4.614147E-04, -3.060466E-04, 2.511663E-04, 3.183557E-05, -1.066797E-04, 2.947533E-05, 3.135620E-05, -2.822733E-05, 1.643285E-06, 1.180639E-05, -9.822179E-06, 4.781983E-06, -2.025211E-06, -1.979487E-06, 9.293922E-06, -1.439852E-05, 9.323964E-06, 6.359026E-06, 0.000000E+00, 0.000000E+00, 0.000000E+00],
  [-2.867989E-02, -1.678135E-03, 1.054262E-01, 1.339228E-01, 2.780559E-02, -4.129073E-02, -2.252352E-02, 8.776741E-03, 7.892473E-03, -2.727936E-03, -2.360522E-03, 1.230566E-03, 5.632309E-04, -5.749871E-04, -3.424611E-05, 2.298065E-04, -7.457760E-05, -6.446532E-05, 6.565372E-05, -8.703684E-06, -2.423433E-05, 2.340302E-05, -1.425688E-05, 9.168410E-06, -2.127200E-08, -1.961718E-05, 3.767079E-05, -3.209882E-05, -4.439033E-06, 0.000000E+00, 0.000000E+00, 5.114642E-03, -4.628799E-03, -3.254975E-02, -3.910454E-02, -8.198562E-03, 1.269405E-02, 5.045197E-03, -4.411732E-03, -1.645305E-03, 1.826477E-03, 2.735737E-04, -7.614265E-04, 1.202228E-04, 2.600075E-04, -1.492810E-04, -4.493353E-05, 8.476198E-05, -2.066395E-05, -2.989230E-05, 2.576727E-05, 3.706813E-06, -1.875341E-05, 8.081615E-06, 1.091602E-05, -1.565575E-05, 1.016483E-06, 1.713341E-05, -1.841467E-05, 0.000000E+00, 0.000000E+00, 0.000000E+00],
  [-1.319061E-02, -5.065409E-02, -4.930241E-02, 1.866926E-02, 4.587400E-02, -5.509567E-03, -2.900798E-02, -5.084657E-03, 1.004871E-02, 1.998143E-03, -3.609875E-03, -1.884932E-04, 1.327926E-03, -2.872679E-04, -4.112523E-04, 2.657823E-04, 5.727927E-05, -1.381296E-04, 3.941353E-05, 4.739893E-05, -4.507546E-05, -5.544458E-06, 3.674384E-05, -2.140329E-05, -1.665884E-05, 3.494022E-05, -1.398484E-05, -2.506308E-05, 4.071684E-05, 0.000000E+00, 0.000000E+00, 4.305078E-03, 1.264377E-02, 1.021012E-02, -8.198562E-03, -1.532500E-02, -2.693689E-04, 7.537994E-03, 3.911855E-04, -3.236319E-03, 2.898736E-04, 1.273881E-03, -4.626603E-04, -3.780253E-04, 3.340660E-04, 2.089834E-05, -1.544798E-04, 6.891540E-05, 3.469188E-05, -5.694184E-05, 1.997737E-05, 2.156524E-05, -3.454438E-05, 1.551705E-05, 1.674922E-05, -3.484398E-05, 2.224657E-05, 1.223237E-05, -3.964970E-05, 0.000000E+00, 0.000000E+00, 0.000000E+00],
  [4.775992E-03, -6.597686E-03, -4.367403E-02, -5.417738E-02, -9.468308E-03, 1.678395E-02, -6.577061E-03, -1.473408E-02, 1.098916E-03, 6.098362E-03, -7.768587E-04, -2.114142E-03, 7.385508E-04, 5.673373E-04, -4.702514E-04, -3.555771E-05, 2.063440E-04, -8.693648E-05, -4.704297E-05, 7.444753E-05, -2.764492E-05, -2.680180E-05, 4.912060E-05, -3.024231E-05, -1.451699E-05, 5.190834E-05, -4.941945E-05, 2.246583E-06, 5.571525E-05, 0.000000E+00, 0.000000E+00, -4.876388E-04, 3.393911E-03, 1.206814E-02, 1.269405E-02, -2.693689E-04, -7.324269E-03, 2.431812E-04, 3.847865E-03, -5.887249E-04, -1.668220E-03, 6.734362E-04, 5.304840E-04, -4.811047E-04, -3.950544E-05, 2.268772E-04, -9.103304E-05, -5.127607E-05, 6.646084E-05, -1.757707E-05, -1.420841E-05, 1.552560E-05, -9.486739E-06, 7.031972E-06, -9.555167E-07, -1.226025E-05, 2.122856E-05, -1.206574E-05, -1.313675E-05, 0.000000E+00, 0.000000E+00, 0.000000E+00],
  [3.001043E-03, 1.296152E-02, 1.148922E-02, -1.583916E-02, -3.097743E-02, -6.720970E-03, 9.667041E-03, -4.232435E-03, -7.793507E-03, 2.126753E-03, 3.316813E-03, -1.262929E-03, -9.939445E-04, 7.309765E-04, 1.258679E-04, -3.226248E-04, 9.204962E-05, 8.189093E-05, -7.651649E-05, 7.253733E-06, 2.325458E-05, -1.027044E-05, -4.006266E-06, -2.014364E-06, 1.291718E-05, -5.392787E-06, -1.906351E-05, 3.246175E-05, -1.054510E-05, 0.000000E+00, 0.000000E+00, -1.011301E-03, -3.000622E-03, -1.650165E-03, 5.045197E-03, 7.537994E-03, 2.431812E-04, -4.156390E-03, 4.065364E-04, 2.150871E-03, -6.894281E-04, -8.445766E-04, 5.939045E-04, 1.630302E-04, -3.367826E-04, 8.108863E-05, 1.141225E-04, -9.812335E-05, -1.006865E-06, 5.042473E-05, -2.916294E-05, -1.253304E-05, 2.784152E-05, -9.683347E-06, -1.704959E-05, 2.443257E-05, -5.865969E-06, -2.056310E-05, 2.956888E-05, 0.000000E+00, 0.000000E+00, 0.000000E+00],
  [-1.279114E-03, 1.505012E-03, 1.403194E-02, 2.043261E-02, 2.929743E-03, -1.333879E-02, -3.261521E-03, 5.460680E-03, -2.904125E-03, -4.008659E-03, 2.044993E-03, 1.608058E-03, -1.156837E-03, -3.328703E-04, 5.402284E-04, -7.586407E-05, -1.753675E-04, 1.155404E-04, 1.422726E-05, -6.474429E-05, 3.567611E-05, 1.514226E-05, -4.033856E-05, 2.461016E-05, 1.583317E-05, -4.509616E-05, 3.316930E-05, 1.583306E-05, -6.013671E-05, 0.000000E+00, 0.000000E+00, 1.272236E-04, -9.682564E-04, -3.828421E-03, -4.411732E-03, 3.911855E-04, 3.847865E-03, 4.065364E-04, -2.223843E-03, 3.737753E-04, 1.132213E-03, -5.703659E-04, -3.688599E-04, 4.225099E-04, -1.027258E-05, -1.899120E-04, 1.026949E-04, 2.809666E-05, -6.241728E-05, 2.840407E-05, 6.489258E-06, -1.806603E-05, 1.564775E-05, -8.274191E-06, -3.415638E-06, 1.599088E-05, -1.900727E-05, 5.527724E-06, 1.685910E-05, 0.000000E+00, 0.000000E+00, 0.000000E+00],
  [-6.188830E-04, -3.835859E-03, -4.780876E-03, 4.865306E-03, 1.434693E-02, 5.797752E-03, -6.351428E-03, -1.849942E-03, 3.293077E-03, -1.739136E-03, -2.037623E-03, 1.488409E-03, 6.762650E-04, -8.191238E-04, -1.978294E-05, 3.191281E-04, -1.227149E-04, -6.090622E-05, 7.412090E-05, -1.689545E-05, -1.443219E-05, 9.915245E-06, -2.305462E-06, 8.426213E-06, -1.349245E-05, -1.257831E-06, 2.717703E-05, -3.251733E-05, -1.410392E-07, 0.000000E+00, 0.000000E+00, 2.554877E-04, 9.270562E-04, 7.274342E-04, -1.645305E-03, -3.236319E-03, -5.887249E-04, 2.150871E-03, 3.737753E-04, -1.283690E-03, 2.563465E-04, 6.146641E-04, -3.983895E-04, -1.458397E-04, 2.687936E-04, -6.139915E-05, -9.832469E-05, 8.421944E-05, 3.754778E-08, -4.281052E-05, 2.561389E-05, 9.175314E-06, -2.194066E-05, 7.237448E-06, 1.357120E-05, -1.793829E-05, 2.243090E-06, 1.748574E-05, -2.179340E-05, 0.000000E+00, 0.000000E+00, 0.000000E+00],
  [4.307149E-04, 1.199208E-04, -3.985252E-03, -8.351997E-03, -3.174411E-03, 6.371502E-03, 4.338678E-03, -3.029017E-03, -8.908996E-04, 2.046900E-03, -1.103112E-03, -1.060234E-03, 1.007523E-03, 2.337117E-04, -5.249491E-04, 9.109134E-05, 1.703509E-04, -1.123381E-04, -1.140588E-05, 5.575765E-05, -3.121531E-05, -1.048102E-05, 3.243273E-05, -2.020244E-05, -1.465715E-05, 3.878911E-05, -2.395558E-05, -2.150359E-05, 5.430054E-05, 0.000000E+00, 0.000000E+00, -6.624561E-05, 1.810302E-04, 1.183828E-03, 1.826477E-03, 2.898736E-04, -1.668220E-03, -6.894281E-04, 1.132213E-03, 2.563465E-04, -7.386929E-04, 1.801434E-04, 3.319228E-04, -2.636136E-04, -4.235336E-05, 1.561705E-04, -6.517278E-05, -3.581282E-05, 5.154922E-05, -1.797962E-05, -8.868022E-06, 1.446348E-05, -1.064922E-05, 5.559390E-06, 1.885260E-06, -1.088514E-05, 1.401835E-05, -5.366082E-06, -1.041298E-05, 0.000000E+00, 0.000000E+00, 0.000000E+00],
  [8.699779E-05, 1.153566E-03, 2.411085E-03, -1.783995E-04, -5.495024E-03, -4.352035E-03, 2.542327E-03, 2.928862E-03, -1.506175E-03, -4.973165E-04, 1.252558E-03, -6.971805E-04, -5.494641E-04, 6.495633E-04, 3.818303E-05, -3.094621E-04, 1.089241E-04, 7.229370E-05, -7.149902E-05, 8.256724E-06, 1.684742E-05, -5.829556E-06, -1.507626E-06, -8.530211E-06, 1.553351E-05, -2.858426E-08, -2.585314E-05, 2.981178E-05, 6.450984E-07, 0.000000E+00, 0.000000E+00, -6.322053E-05, -3.248285E-04, -4.614147E-04, 2.735737E-04, 1.273881E-03, 6.734362E-04, -8.445766E-04, -5.703659E-04, 6.146641E-04, 1.801434E-04, -4.338562E-04, 1.205009E-04, 1.816669E-04, -1.711610E-04, -1.286214E-06, 9.252669E-05, -5.543508E-05, -1.391589E-05, 3.869463E-05, -1.810473E-05, -1.056486E-05, 1.924162E-05, -6.529585E-06, -1.057203E-05, 1.504662E-05, -3.834269E-06, -1.161249E-05, 1.682760E-05, 0.000000E+00, 0.000000E+00, 0.000000E+00],
  [-1.442853E-04, -3.262318E-04, 7.707972E-04, 3.228284E-03, 2.816211E-03, -1.760029E-03, -3.178868E-03, 7.777829E-04, 1.765492E-03, -8.077482E-04, -2.892076E-04, 7.714456E-04, -4.413582E-04, -2.850943E-04, 4.053974E-04, -3.267225E-05, -1.738010E-04, 9.530086E-05, 2.330766E-05, -5.297931E-05, 2.442618E-05, 1.018871E-05, -2.673076E-05, 1.687058E-05, 1.150659E-05, -3.141821E-05, 1.926599E-05, 1.675695E-05, -4.097253E-05, 0.000000E+00, 0.000000E+00, 3.416592E-05, 1.614041E-05, -3.060466E-04, -7.614265E-04, -4.626603E-04, 5.304840E-04, 5.939045E-04, -3.688599E-04, -3.983895E-04, 3.319228E-04, 1.205009E-04, -2.563273E-04, 7.749782E-05, 9.942232E-05, -1.041931E-04, 1.064083E-05, 4.673506E-05, -3.406265E-05, 2.647722E-07, 1.347186E-05, -8.271904E-06, 2.105503E-06, -1.650208E-06, 1.191498E-06, 3.512164E-06, -8.314834E-06, 6.582255E-06, 2.076917E-06, 0.000000E+00, 0.000000E+00, 0.000000E+00],
  [9.044053E-06, -2.814236E-04, -1.074957E-03, -9.237148E-04, 1.393083E-03, 2.604897E-03, -1.094978E-04, -2.017911E-03, 9.236244E-05, 1.045212E-03, -4.554114E-04, -1.704037E-04, 4.788369E-04, -2.888119E-04, -1.449023E-04, 2.525516E-04, -5.103675E-05, -9.200710E-05, 6.424836E-05, 6.097681E-06, -2.341404E-05, 2.999865E-06, 7.210220E-06, 5.002860E-06, -1.571185E-05, 4.532799E-06, 1.809562E-05, -2.464013E-05, 4.660598E-06, 0.000000E+00, 0.000000E+00, 1.204760E-05, 1.051024E-04, 2.511663E-04, 1.202228E-04, -3.780253E-04, -4.811047E-04, 1.630302E-04, 4.225099E-04, -1.458397E-04, -2.636136E-04, 1.816669E-04, 7.749782E-05, -1.532124E-04, 5.352150E-05, 5.309462E-05, -6.786307E-05, 1.750210E-05, 2.586963E-05, -2.925366E-05, 7.608145E-06, 1.181679E-05, -1.520288E-05, 5.149197E-06, 7.183486E-06, -1.154535E-05, 5.430872E-06, 5.154789E-06, -1.127576E-05, 0.000000E+00, 0.000000E+00, 0.000000E+00],
  [4.735265E-05, 2.047698E-04, 8.188088E-05, -9.377378E-04, -1.707302E-03, -2.379526E-04, 1.590989E-03, 4.741188E-04, -1.150160E-03, -1.258353E-04, 6.275041E-04, -2.601718E-04, -1.177199E-04, 2.989477E-04, -1.792375E-04, -7.495435E-05, 1.520760E-04, -4.886880E-05, -4.283896E-05, 4.739865E-05, -1.413594E-05, -1.132459E-05, 2.057745E-05, -1.370582E-05, -5.752780E-06, 2.147984E-05, -1.627670E-05, -6.550546E-06, 2.449294E-05, 0.000000E+00, 0.000000E+00, -1.619437E-05, -3.975762E-05, 3.183557E-05, 2.600075E-04, 3.340660E-04, -3.950544E-05, -3.367826E-04, -1.027258E-05, 2.687936E-04, -4.235336E-05, -1.711610E-04, 9.942232E-05, 5.352150E-05, -9.379708E-05, 3.195681E-05, 3.229677E-05, -4.044363E-05, 9.581434E-06, 1.491694E-05, -1.379660E-05, 6.421279E-07, 5.717508E-06, -1.813342E-06, -3.488055E-06, 2.806083E-06, 2.520785E-06, -6.096417E-06, 3.893658E-06, 0.000000E+00, 0.000000E+00, 0.000000E+00],
  [-1.829421E-05, 2.218449E-05, 3.658542E-04, 7.365132E-04, 1.249651E-04, -1.054479E-03, -6.738090E-04, 7.908367E-04, 5.287012E-04, -5.995765E-04, -1.511497E-04, 3.586707E-04, -1.532106E-04, -6.441426E-05, 1.829249E-04, -1.210410E-04, -3.334886E-05, 9.429100E-05, -3.809284E-05, -2.444183E-05, 2.829198E-05, -3.712375E-07, -1.244059E-05, 6.845543E-07, 1.265199E-05, -8.255476E-06, -8.152865E-06, 1.692377E-05, -8.670368E-06, 0.000000E+00, 0.000000E+00, 1.286248E-06, -2.330069E-05, -1.066797E-04, -1.492810E-04, 2.089834E-05, 2.268772E-04, 8.108863E-05, -1.899120E-04, -6.139915E-05, 1.561705E-04, -1.286214E-06, -1.041931E-04, 5.309462E-05, 3.195681E-05, -5.403596E-05, 2.204006E-05, 1.371286E-05, -2.354702E-05, 1.193817E-05, 2.767777E-06, -9.433330E-06, 7.848959E-06, -2.230004E-06, -3.402643E-06, 6.112160E-06, -4.575305E-06, -8.291305E-08, 4.715789E-06, 0.000000E+00, 0.000000E+00, 0.000000E+00],
  [-1.646350E-05, -8.419337E-05, -1.776978E-04, 6.577853E-05, 6.811314E-04, 6.161027E-04, -4.180814E-04, -6.442577E-04, 3.402255E-04, 4.304754E-04, -3.272328E-04, -1.275732E-04, 2.333887E-04, -9.831147E-05, -5.169945E-05, 1.224198E-04, -7.534556E-05, -1.777730E-05, 5.421602E-05, -2.873238E-05, -2.404673E-06, 1.306705E-05, -1.282390E-05, 8.794663E-06, 7.531353E-07, -1.121665E-05, 1.229514E-05, -2.051604E-06, -9.632822E-06, 0.000000E+00, 0.000000E+00, 6.920846E-06, 2.439030E-05, 2.947533E-05, -4.493353E-05, -1.544798E-04, -9.103304E-05, 1.141225E-04, 1.026949E-04, -9.832469E-05, -6.517278E-05, 9.252669E-05, 1.064083E-05, -6.786307E-05, 3.229677E-05, 2.204006E-05, -3.707564E-05, 1.542526E-05, 1.079975E-05, -1.817544E-05, 7.489520E-06, 5.583096E-06, -8.933391E-06, 3.003249E-06, 3.999927E-06, -5.559320E-06, 1.557341E-06, 3.565460E-06, -5.373359E-06, 0.000000E+00, 0.000000E+00, 0.000000E+00],
  [1.976556E-05, 2.716799E-05, -6.863719E-05, -3.353790E-04, -3.989330E-04, 1.366557E-04, 5.346381E-04, -1.011258E-05, -4.565050E-04, 6.304446E-05, 3.052197E-04, -1.380575E-04, -1.062293E-04, 1.282991E-04, -4.734290E-05, -2.923923E-05, 6.967465E-05, -4.970234E-05, -5.340267E-06, 3.601089E-05, -2.222235E-05, -6.011336E-06, 1.609719E-05, -5.288801E-06, -7.863295E-06, 8.879150E-06, 3.476463E-08, -7.594024E-06, 7.249796E-06, 0.000000E+00, 0.000000E+00, -4.786355E-06, -1.391766E-06, 3.135620E-05, 8.476198E-05, 6.891540E-05, -5.127607E-05, -9.812335E-05, 2.809666E-05, 8.421944E-05, -3.581282E-05, -5.543508E-05, 4.673506E-05, 1.750210E-05, -4.044363E-05, 1.371286E-05, 1.542526E-05, -1.967005E-05, 6.694473E-06, 5.116862E-06, -7.144447E-06, 2.952702E-06, 5.946641E-07, -9.552716E-07, 8.238384E-08, -2.963162E-07, 1.555385E-06, -2.104179E-06, 7.297799E-07, 0.000000E+00, 0.000000E+00, 0.000000E+00]]

/-- `Daejeon16_public_v2.f90` 740-753. -/
def coup3fh_4 : List (List Num) := [
  [-1.892871E-06, 2.771877E-05, 1.099368E-04, 1.304249E-04, -1.013392E-04, -3.443673E-04, -8.869923E-05, 3.107741E-04, 8.309859E-05, -2.633330E-04, 3.101163E-06, 1.786795E-04, -8.165390E-05, -5.516269E-05, 8.523003E-05, -4.197570E-05, -1.826132E-05, 4.957440E-05, -3.272927E-05, -2.225968E-06, 1.701483E-05, -1.023647E-05, 2.332951E-06, -1.378516E-06, 7.798271E-07, 3.274353E-06, -6.379658E-06, 4.421717E-06, 7.658467E-07, 0.000000E+00, 0.000000E+00, -8.447822E-07, -1.085765E-05, -2.822733E-05, -2.066395E-05, 3.469188E-05, 6.646084E-05, -1.006865E-06, -6.241728E-05, 3.754778E-08, 5.154922E-05, -1.391589E-05, -3.406265E-05, 2.586963E-05, 9.581434E-06, -2.354702E-05, 1.079975E-05, 6.694473E-06, -1.320226E-05, 8.125269E-06, 9.124271E-07, -6.426153E-06, 5.813057E-06, -1.391293E-06, -2.786709E-06, 4.087080E-06, -2.360203E-06, -7.527506E-07, 3.093494E-06, 0.000000E+00, 0.000000E+00, 0.000000E+00],
  [-1.386232E-05, -3.425928E-05, -3.289829E-05, 8.465577E-05, 2.622862E-04, 1.575686E-04, -2.107298E-04, -2.082155E-04, 1.800639E-04, 1.532417E-04, -1.754517E-04, -5.668617E-05, 1.393237E-04, -3.108344E-05, -5.912490E-05, 5.601018E-05, -1.650988E-05, -1.571076E-05, 2.995507E-05, -2.305937E-05, 2.615131E-06, 1.360530E-05, -1.439696E-05, 4.173963E-06, 5.236048E-06, -7.131493E-06, 3.490208E-06, 5.960147E-07, -2.760866E-06, 0.000000E+00, 0.000000E+00, 4.123056E-06, 8.381792E-06, 1.643285E-06, -2.989230E-05, -5.694184E-05, -1.757707E-05, 5.042473E-05, 2.840407E-05, -4.281052E-05, -1.797962E-05, 3.869463E-05, 2.647722E-07, -2.925366E-05, 1.491694E-05, 1.193817E-05, -1.817544E-05, 5.116862E-06, 8.125269E-06, -1.016689E-05, 3.488943E-06, 3.478861E-06, -5.173046E-06, 2.012612E-06, 1.944661E-06, -3.168273E-06, 1.180921E-06, 1.779900E-06, -3.005435E-06, 0.000000E+00, 0.000000E+00, 0.000000E+00],
  [1.440391E-05, 6.738718E-06, -2.972646E-05, -9.831015E-05, -1.148273E-04, 3.276817E-05, 1.569625E-04, 6.813929E-06, -1.392133E-04, 1.329258E-05, 1.042737E-04, -4.609204E-05, -5.028528E-05, 5.412040E-05, -4.901241E-06, -2.533169E-05, 2.683641E-05, -1.241048E-05, -8.147180E-06, 1.947939E-05, -1.266275E-05, -1.608190E-06, 7.665827E-06, -3.648802E-06, -1.508286E-06, 2.021008E-06, 2.760740E-07, -1.690047E-06, 1.396937E-06, 0.000000E+00, 0.000000E+00, -3.251498E-06, -1.099907E-07, 1.180639E-05, 2.576727E-05, 1.997737E-05, -1.420841E-05, -2.916294E-05, 6.489258E-06, 2.561389E-05, -8.868022E-06, -1.810473E-05, 1.347186E-05, 7.608145E-06, -1.379660E-05, 2.767777E-06, 7.489520E-06, -7.144447E-06, 9.124271E-07, 3.488943E-06, -3.589216E-06, 1.393789E-06, 4.404341E-07, -8.606822E-07, 4.596220E-07, -2.579770E-07, 5.375462E-07, -7.216701E-07, 2.210870E-07, 0.000000E+00, 0.000000E+00, 0.000000E+00],
  [-2.483817E-06, 2.541191E-05, 4.380761E-05, -5.991794E-08, -8.463138E-05, -9.397222E-05, 3.259026E-05, 1.062755E-04, -2.106196E-05, -9.435159E-05, 3.806669E-05, 6.719867E-05, -5.483035E-05, -2.538058E-05, 4.969330E-05, -1.273075E-05, -1.993841E-05, 2.203567E-05, -9.232631E-06, -3.060688E-06, 1.017520E-05, -1.059083E-05, 5.134822E-06, 1.507211E-06, -4.575880E-06, 3.657967E-06, -1.717102E-06, 7.824154E-07, -1.313985E-07, 0.000000E+00, 0.000000E+00, -2.316953E-07, -6.992400E-06, -9.822179E-06, 3.706813E-06, 2.156524E-05, 1.552560E-05, -1.253304E-05, -1.806603E-05, 9.175314E-06, 1.446348E-05, -1.056486E-05, -8.271904E-06, 1.181679E-05, 6.421279E-07, -9.433330E-06, 5.583096E-06, 2.952702E-06, -6.426153E-06, 3.478861E-06, 1.393789E-06, -4.022048E-06, 3.306123E-06, -5.994621E-07, -1.930314E-06, 2.689986E-06, -1.448199E-06, -6.836509E-07, 2.095298E-06, 0.000000E+00, 0.000000E+00, 0.000000E+00],
  [-9.674748E-06, -3.832621E-05, -3.383746E-05, 5.526135E-05, 1.531558E-04, 8.523747E-05, -1.099346E-04, -1.145351E-04, 8.513814E-05, 9.024894E-05, -8.250660E-05, -4.461380E-05, 7.311774E-05, -2.145512E-06, -4.290762E-05, 2.610550E-05, 4.257142E-06, -1.660527E-05, 1.468474E-05, -6.291380E-06, -4.570990E-06, 1.121032E-05, -8.853364E-06, 1.185481E-06, 4.254631E-06, -4.536053E-06, 2.268012E-06, -4.142865E-07, -7.813784E-07, 0.000000E+00, 0.000000E+00, 3.180748E-06, 9.398491E-06, 4.781983E-06, -1.875341E-05, -3.454438E-05, -9.486739E-06, 2.784152E-05, 1.564775E-05, -2.194066E-05, -1.064922E-05, 1.924162E-05, 2.105503E-06, -1.520288E-05, 5.717508E-06, 7.848959E-06, -8.933391E-06, 5.946641E-07, 5.813057E-06, -5.173046E-06, 4.404341E-07, 3.306123E-06, -3.556890E-06, 1.104903E-06, 1.578763E-06, -2.428975E-06, 1.125209E-06, 9.631415E-07, -2.042251E-06, 0.000000E+00, 0.000000E+00, 0.000000E+00],
  [1.180724E-05, 2.180412E-05, 1.509056E-05, -1.984092E-05, -6.537344E-05, -5.193558E-05, 2.988088E-05, 5.262627E-05, -1.898141E-05, -3.513589E-05, 1.914952E-05, 1.143276E-05, -1.643926E-05, 8.191041E-06, 4.839296E-06, -1.360521E-05, 7.841812E-06, 4.623924E-06, -9.049202E-06, 4.584778E-06, 4.573505E-07, -2.449331E-06, 3.009450E-06, -2.877315E-06, 1.311151E-06, 9.829220E-07, -1.957296E-06, 8.905040E-07, 7.590019E-07, 0.000000E+00, 0.000000E+00, -3.178450E-06, -5.479397E-06, -2.025211E-06, 8.081615E-06, 1.551705E-05, 7.031972E-06, -9.683347E-06, -8.274191E-06, 7.237448E-06, 5.559390E-06, -6.529585E-06, -1.650208E-06, 5.149197E-06, -1.813342E-06, -2.230004E-06, 3.003249E-06, -9.552716E-07, -1.391293E-06, 2.012612E-06, -8.606822E-07, -5.994621E-07, 1.104903E-06, -6.285729E-07, -4.851627E-08, 3.066780E-07, -1.238229E-07, -1.561954E-07, 2.317023E-07, 0.000000E+00, 0.000000E+00, 0.000000E+00],
  [-3.657844E-06, 1.446489E-05, 1.537961E-05, -4.013237E-05, -8.065428E-05, -1.364285E-05, 8.046600E-05, 4.173953E-05, -6.335400E-05, -3.872826E-05, 5.106750E-05, 2.351397E-05, -3.874946E-05, -6.408025E-06, 2.425956E-05, -4.954528E-06, -9.077265E-06, 6.663272E-06, -2.024487E-06, -2.249947E-07, 3.429443E-06, -5.574338E-06, 2.810176E-06, 2.563989E-06, -4.981014E-06, 3.022182E-06, -6.500847E-08, -9.470904E-07, 5.660299E-07, 0.000000E+00, 0.000000E+00, 3.875924E-07, -3.250292E-06, -1.979487E-06, 1.091602E-05, 1.674922E-05, -9.555167E-07, -1.704959E-05, -3.415638E-06, 1.357120E-05, 1.885260E-06, -1.057203E-05, 1.191498E-06, 7.183486E-06, -3.488055E-06, -3.402643E-06, 3.999927E-06, 8.238384E-08, -2.786709E-06, 1.944661E-06, 4.596220E-07, -1.930314E-06, 1.578763E-06, -4.851627E-08, -1.374078E-06, 1.667397E-06, -7.086086E-07, -6.907407E-07, 1.438341E-06, 0.000000E+00, 0.000000E+00, 0.000000E+00],
  [-6.132132E-06, -4.431517E-05, -5.048567E-05, 4.356256E-05, 1.505767E-04, 9.370744E-05, -8.851259E-05, -1.108059E-04, 5.650188E-05, 8.532391E-05, -4.834929E-05, -4.527549E-05, 4.213803E-05, 7.647450E-06, -2.620148E-05, 1.346385E-05, 4.553221E-06, -1.310289E-05, 9.077595E-06, 7.348883E-07, -6.760137E-06, 6.140066E-06, -2.362670E-06, -1.096207E-06, 3.148936E-06, -3.595316E-06, 2.434717E-06, -3.656049E-07, -1.471454E-06, 0.000000E+00, 0.000000E+00, 2.632388E-06, 1.120876E-05, 9.293922E-06, -1.565575E-05, -3.484398E-05, -1.226025E-05, 2.443257E-05, 1.599088E-05, -1.793829E-05, -1.088514E-05, 1.504662E-05, 3.512164E-06, -1.154535E-05, 2.806083E-06, 6.112160E-06, -5.559320E-06, -2.963162E-07, 4.087080E-06, -3.168273E-06, -2.579770E-07, 2.689986E-06, -2.428975E-06, 3.066780E-07, 1.667397E-06, -2.076031E-06, 9.129993E-07, 7.487287E-07, -1.669785E-06, 0.000000E+00, 0.000000E+00, 0.000000E+00],
  [8.513682E-06, 4.317405E-05, 6.224793E-05, 1.716699E-05, -7.800500E-05, -1.180585E-04, -1.442447E-05, 9.411958E-05, 2.916458E-05, -6.394693E-05, -1.287536E-05, 3.503980E-05, -5.830055E-06, -8.912858E-06, 1.100739E-05, -8.638230E-06, -3.024410E-06, 1.186235E-05, -5.970328E-06, -4.660705E-06, 6.282889E-06, -9.769527E-07, -1.770887E-06, 6.081504E-08, 1.172004E-06, 5.321933E-07, -2.546553E-06, 2.065498E-06, 2.422545E-07, 0.000000E+00, 0.000000E+00, -3.164388E-06, -1.190305E-05, -1.439852E-05, 1.016483E-06, 2.224657E-05, 2.122856E-05, -5.865969E-06, -1.900727E-05, 2.243090E-06, 1.401835E-05, -3.834269E-06, -8.314834E-06, 5.430872E-06, 2.520785E-06, -4.575305E-06, 1.557341E-06, 1.555385E-06, -2.360203E-06, 1.180921E-06, 5.375462E-07, -1.448199E-06, 1.125209E-06, -1.238229E-07, -7.086086E-07, 9.129993E-07, -5.478379E-07, -6.260615E-08, 5.647136E-07, 0.000000E+00, 0.000000E+00, 0.000000E+00],
  [-2.037320E-06, -8.853023E-06, -2.685949E-05, -7.326726E-05, -7.849774E-05, 3.625274E-05, 1.190081E-04, 1.069159E-05, -9.504692E-05, -1.487392E-05, 5.980696E-05, 2.352336E-06, -2.750070E-05, 6.059075E-06, 4.876397E-06, -3.943748E-06, 4.574613E-06, -2.353325E-06, -3.447186E-06, 5.198592E-06, -9.366257E-07, -3.566578E-06, 3.491323E-06, 1.572135E-07, -3.071376E-06, 2.603108E-06, 8.432565E-08, -2.064877E-06, 1.943372E-06, 0.000000E+00, 0.000000E+00, 7.197524E-07, 3.502925E-06, 9.323964E-06, 1.713341E-05, 1.223237E-05, -1.206574E-05, -2.056310E-05, 5.527724E-06, 1.748574E-05, -5.366082E-06, -1.161249E-05, 6.582255E-06, 5.154789E-06, -6.096417E-06, -8.291305E-08, 3.565460E-06, -2.104179E-06, -7.527506E-07, 1.779900E-06, -7.216701E-07, -6.836509E-07, 9.631415E-07, -1.561954E-07, -6.907407E-07, 7.487287E-07, -6.260615E-08, -6.859066E-07, 8.423388E-07, 0.000000E+00, 0.000000E+00, 0.000000E+00],
  [-6.451165E-06, -3.388138E-05, -4.282586E-05, 5.360437E-05, 1.799066E-04, 1.061903E-04, -1.124978E-04, -1.235753E-04, 6.575802E-05, 8.589943E-05, -4.536588E-05, -3.654407E-05, 3.207027E-05, 1.726544E-08, -1.464194E-05, 1.414918E-05, -2.064132E-06, -1.006994E-05, 8.987252E-06, 5.038636E-07, -5.413926E-06, 3.443866E-06, -5.878068E-07, -4.130174E-07, 1.237096E-06, -2.420673E-06, 2.259191E-06, -1.255443E-07, -2.232447E-06, 0.000000E+00, 0.000000E+00, 2.530536E-06, 8.521585E-06, 6.359026E-06, -1.841467E-05, -3.964970E-05, -1.313675E-05, 2.956888E-05, 1.685910E-05, -2.179340E-05, -1.041298E-05, 1.682760E-05, 2.076917E-06, -1.127576E-05, 3.893658E-06, 4.715789E-06, -5.373359E-06, 7.297799E-07, 3.093494E-06, -3.005435E-06, 2.210870E-07, 2.095298E-06, -2.042251E-06, 2.317023E-07, 1.438341E-06, -1.669785E-06, 5.647136E-07, 8.423388E-07, -1.509122E-06, 0.000000E+00, 0.000000E+00, 0.000000E+00],
  [0.000000E+00, 0.000000E+00, 0.000000E+00, 0.000000E+00, 0.000000E+00, 0.000000E+00, 0.000000E+00, 0.000000E+00, 0.000000E+00, 0.000000E+00, 0.000000E+00, 0.000000E+00, 0.000000E+00, 0.000000E+00, 0.000000E+00, 0.000000E+00, 0.000000E+00, 0.000000E+00, 0.000000E+00, 0.000000E+00, 0.000000E+00, 0.000000E+00, 0.000000E+00, 0.000000E+00, 0.000000E+00, 0.000000E+00, 0.000000E+00, 0.000000E+00, 0.000000E+00, 0.000000E+00, 0.000000E+00, 0.000000E+00, 0.000000E+00, 0.000000E+00, 0.000000E+00, 0.000000E+00, 0.000000E+00, 0.000000E+00, 0.000000E+00, 0.000000E+00, 0.000000E+00, 0.000000E+00, 0.000000E+00, 0.000000E+00, 0.000000E+00, 0.000000E+00, 0.000000E+00, 0.000000E+00, 0.000000E+00, 0.000000E+00, 0.000000E+00, 0.000000E+00, 0.000000E+00, 0.000000E+00, 0.000000E+00, 0.000000E+00, 0.000000E+00, 0.000000E+00, 0.000000E+00, 0.000000E+00, 0.000000E+00, 0.000000E+00],
  [0.000000E+00, 0.000000E+00, 0.000000E+00, 0.000000E+00, 0.000000E+00, 0.000000E+00, 0.000000E+00, 0.000000E+00, 0.000000E+00, 0.000000E+00, 0.000000E+00, 0.000000E+00, 0.000000E+00, 0.000000E+00, 0.000000E+00, 0.000000E+00, 0.000000E+00, 0.000000E+00, 0.000000E+00, 0.000000E+00, 0.000000E+00, 0.000000E+00, 0.000000E+00, 0.000000E+00, 0.000000E+00, 0.000000E+00, 0.000000E+00, 0.000000E+00, 0.000000E+00, 0.000000E+00, 0.000000E+00, 0.000000E+00, 0.000000E+00, 0.000000E+00, 0.000000E+00, 0.000000E+00, 0.000000E+00, 0.000000E+00, 0.000000E+00, 0.000000E+00, 0.000000E+00, 0.000000E+00, 0.000000E+00, 0.000000E+00, 0.000000E+00, 0.000000E+00, 0.000000E+00, 0.000000E+00, 0.000000E+00, 0.000000E+00, 0.000000E+00, 0.000000E+00, 0.000000E+00, 0.000000E+00, 0.000000E+00, 0.000000E+00, 0.000000E+00, 0.000000E+00, 0.000000E+00, 0.000000E+00, 0.000000E+00, 0.000000E+00],
  [0.000000E+00, 0.000000E+00, 0.000000E+00, 0.000000E+00, 0.000000E+00, 0.000000E+00, 0.000000E+00, 0.000000E+00, 0.000000E+00, 0.000000E+00, 0.000000E+00, 0.000000E+00, 0.000000E+00, 0.000000E+00, 0.000000E+00, 0.000000E+00, 0.000000E+00, 0.000000E+00, 0.000000E+00, 0.000000E+00, 0.000000E+00, 0.000000E+00, 0.000000E+00, 0.000000E+00, 0.000000E+00, 0.000000E+00, 0.000000E+00, 0.000000E+00, 0.000000E+00, 0.000000E+00, 0.000000E+00, 0.000000E+00, 0.000000E+00, 0.000000E+00, 0.000000E+00, 0.000000E+00, 0.000000E+00, 0.000000E+00, 0.000000E+00, 0.000000E+00, 0.000000E+00, 0.000000E+00, 0.000000E+00, 0.000000E+00, 0.000000E+00, 0.000000E+00, 0.000000E+00, 0.000000E+00, 0.000000E+00, 0.000000E+00, 0.000000E+00, 0.000000E+00, 0.000000E+00, 0.000000E+00, 0.000000E+00, 0.000000E+00, 0.000000E+00, 0.000000E+00, 0.000000E+00, 0.000000E+00, 0.000000E+00, 0.000000E+00]]

/-- `Daejeon16_public_v2.f90` 691-754. -/
def coup3fh : List (List Num) := coup3fh_1 ++ coup3fh_2 ++ coup3fh_3 ++ coup3fh_4

end Verif.Daejeon
