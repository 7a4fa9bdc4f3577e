import Verif.Daejeon.Number

/-!
# Tables of Daejeon16: unc3f3, unc1g4, unc3g4, unc1h5, unc3h5, unc1i6, unc3i6

The `data` statements of `contrib/Daejeon16/Daejeon16_public_v2.f90`, line by line; a line of the source is a row here.
-/

namespace Verif.Daejeon

/-- `Daejeon16_public_v2.f90` 268-300. -/
def unc3f3 : List (List Num) := [
  [6.024656E-01, 3.263277E-01, 5.133874E-02, -4.273525E-02, -2.567111E-02, 1.203351E-03, 5.514608E-03, 5.059754E-04, -1.274413E-03, -1.505617E-04, 3.588233E-04, 6.353856E-06, -1.128040E-04, 1.867774E-05, 4.071417E-05, -2.200894E-05, -1.419849E-05, 2.551067E-05, -1.170409E-05, -8.212915E-06, 1.806499E-05, -1.395894E-05, 2.733343E-06, 6.054836E-06, -7.903097E-06, 5.246115E-06, -3.158180E-06, 3.758101E-06, -4.575497E-06, 0.000000E+00, 0.000000E+00],
  [3.263277E-01, 5.042764E-01, 2.293303E-01, -4.388960E-02, -9.671450E-02, -2.783259E-02, 1.673453E-02, 1.022010E-02, -3.501802E-03, -2.950587E-03, 1.172977E-03, 7.834907E-04, -5.222700E-04, -1.461461E-04, 2.385677E-04, -3.339354E-05, -8.875357E-05, 6.795223E-05, 1.221974E-06, -4.347984E-05, 3.920000E-05, -4.883317E-06, -2.800591E-05, 3.344671E-05, -8.902254E-06, -2.259937E-05, 3.178095E-05, -9.114270E-06, -2.553524E-05, 0.000000E+00, 0.000000E+00],
  [5.133874E-02, 2.293303E-01, 2.665544E-01, 1.828662E-02, -1.589233E-01, -1.090727E-01, 6.028804E-03, 3.431385E-02, 2.966128E-03, -1.038216E-02, -5.519545E-04, 3.434813E-03, -4.326113E-04, -1.081820E-03, 4.821259E-04, 2.241646E-04, -2.793806E-04, 4.621052E-05, 9.765046E-05, -9.578892E-05, 2.961705E-05, 3.954912E-05, -8.100727E-05, 7.058605E-05, -3.687966E-06, -8.096613E-05, 1.158892E-04, -5.960603E-05, -5.702072E-05, 0.000000E+00, 0.000000E+00],
  [-4.273525E-02, -4.388960E-02, 1.828662E-02, -1.188603E-02, -1.653011E-01, -1.901349E-01, -5.331411E-02, 4.703306E-02, 2.790676E-02, -1.311473E-02, -9.218764E-03, 5.311958E-03, 2.311681E-03, -2.423342E-03, -1.360207E-04, 9.534058E-04, -3.284127E-04, -2.249838E-04, 2.444919E-04, -5.273738E-05, -5.291749E-05, 5.505229E-05, -4.773953E-05, 5.835649E-05, -3.624512E-05, -5.083156E-05, 1.470689E-04, -1.455480E-04, -1.938659E-07, 0.000000E+00, 0.000000E+00],
  [-2.567111E-02, -9.671450E-02, -1.589233E-01, -1.653011E-01, -1.815777E-01, -2.074032E-01, -1.223378E-01, 1.411892E-02, 5.130807E-02, 3.630736E-03, -1.811272E-02, -2.059114E-04, 6.539456E-03, -1.378627E-03, -2.049780E-03, 1.242861E-03, 3.123232E-04, -6.442442E-04, 1.767125E-04, 1.948711E-04, -1.807671E-04, -1.280006E-05, 1.168547E-04, -4.615454E-05, -9.117261E-05, 1.266643E-04, 3.089635E-06, -1.826132E-04, 2.118272E-04, 0.000000E+00, 0.000000E+00],
  [1.203351E-03, -2.783259E-02, -1.090727E-01, -1.901349E-01, -2.074032E-01, -1.857157E-01, -1.412717E-01, -4.335921E-02, 3.744765E-02, 2.921291E-02, -1.050485E-02, -1.091808E-02, 5.052363E-03, 3.044289E-03, -2.740754E-03, -2.137918E-04, 1.173505E-03, -4.765108E-04, -2.453141E-04, 3.770061E-04, -1.515812E-04, -9.463987E-05, 2.058387E-04, -1.481671E-04, -3.915705E-05, 2.230380E-04, -2.268536E-04, -7.202115E-06, 3.050118E-04, 0.000000E+00, 0.000000E+00],
  [5.514608E-03, 1.673453E-02, 6.028804E-03, -5.331411E-02, -1.223378E-01, -1.412717E-01, -1.176143E-01, -7.239773E-02, -5.765926E-03, 3.108390E-02, 1.129375E-02, -1.151695E-02, -4.016037E-03, 4.934425E-03, 3.559413E-04, -1.955167E-03, 6.107529E-04, 4.688703E-04, -4.555357E-04, 6.340678E-05, 1.109795E-04, -5.453950E-05, 6.481239E-06, -6.861258E-05, 1.174867E-04, -4.881878E-06, -2.112515E-04, 2.810027E-04, -3.886524E-05, 0.000000E+00, 0.000000E+00],
  [5.059754E-04, 1.022010E-02, 3.431385E-02, 4.703306E-02, 1.411892E-02, -4.335921E-02, -7.239773E-02, -6.448655E-02, -3.464667E-02, 5.954389E-03, 2.060954E-02, 2.238013E-03, -8.765524E-03, -3.465455E-04, 3.501255E-03, -7.711583E-04, -1.078365E-03, 7.444809E-04, 7.234289E-05, -3.673984E-04, 2.068155E-04, 6.581830E-05, -2.118375E-04, 1.295928E-04, 1.117125E-04, -2.717343E-04, 1.356762E-04, 2.188156E-04, -4.257932E-04, 0.000000E+00, 0.000000E+00],
  [-1.274413E-03, -3.501802E-03, 2.966128E-03, 2.790676E-02, 5.130807E-02, 3.744765E-02, -5.765926E-03, -3.464667E-02, -3.417201E-02, -1.542621E-02, 7.874713E-03, 1.183753E-02, -1.562505E-03, -5.463155E-03, 1.205342E-03, 1.976056E-03, -1.021195E-03, -3.839504E-04, 5.184762E-04, -9.950886E-05, -9.169147E-05, 3.809487E-05, -2.811697E-05, 1.249467E-04, -1.267755E-04, -8.650206E-05, 3.109910E-04, -2.257723E-04, -1.784652E-04, 0.000000E+00, 0.000000E+00],
  [-1.505617E-04, -2.950587E-03, -1.038216E-02, -1.311473E-02, 3.630736E-03, 2.921291E-02, 3.108390E-02, 5.954389E-03, -1.542621E-02, -1.755192E-02, -6.726454E-03, 6.135113E-03, 6.182105E-03, -2.349381E-03, -2.957772E-03, 1.465787E-03, 9.236757E-04, -9.020367E-04, -2.540430E-05, 4.078258E-04, -2.225507E-04, -9.747453E-05, 2.410660E-04, -9.542216E-05, -1.888720E-04, 2.792243E-04, -1.525519E-05, -3.433265E-04, 3.628489E-04, 0.000000E+00, 0.000000E+00],
  [3.588233E-04, 1.172977E-03, -5.519545E-04, -9.218764E-03, -1.811272E-02, -1.050485E-02, 1.129375E-02, 2.060954E-02, 7.874713E-03, -6.726454E-03, -9.309444E-03, -3.014556E-03, 4.127043E-03, 3.044806E-03, -2.027042E-03, -1.402505E-03, 1.178995E-03, 2.977160E-04, -5.487008E-04, 8.710071E-05, 1.085068E-04, -2.678600E-05, 3.245262E-05, -1.411072E-04, 9.529105E-05, 1.517770E-04, -2.998561E-04, 9.540587E-05, 2.872758E-04, 0.000000E+00, 0.000000E+00],
  [6.353856E-06, 7.834907E-04, 3.434813E-03, 5.311958E-03, -2.059114E-04, -1.091808E-02, -1.151695E-02, 2.238013E-03, 1.183753E-02, 6.135113E-03, -3.014556E-03, -5.041440E-03, -1.374983E-03, 2.592301E-03, 1.437100E-03, -1.483678E-03, -5.883761E-04, 8.838606E-04, 7.533075E-08, -4.341626E-04, 2.148718E-04, 1.395523E-04, -2.479159E-04, 5.012806E-05, 2.151081E-04, -2.233027E-04, -6.572037E-05, 3.184341E-04, -2.115270E-04, 0.000000E+00, 0.000000E+00],
  [-1.128040E-04, -5.222700E-04, -4.326113E-04, 2.311681E-03, 6.539456E-03, 5.052363E-03, -4.016037E-03, -8.765524E-03, -1.562505E-03, 6.182105E-03, 4.127043E-03, -1.374983E-03, -2.770606E-03, -6.323821E-04, 1.545403E-03, 6.356295E-04, -9.269868E-04, -1.896387E-04, 4.750714E-04, -5.443344E-05, -1.278870E-04, 2.246916E-05, -1.304836E-05, 1.095346E-04, -6.071245E-05, -1.405342E-04, 2.148523E-04, -1.377369E-05, -2.434178E-04, 0.000000E+00, 0.000000E+00],
  [1.867774E-05, -1.461461E-04, -1.081820E-03, -2.423342E-03, -1.378627E-03, 3.044289E-03, 4.934425E-03, -3.465455E-04, -5.463155E-03, -2.349381E-03, 3.044806E-03, 2.592301E-03, -6.323821E-04, -1.559771E-03, -3.041473E-04, 9.543803E-04, 2.710224E-04, -6.455173E-04, 2.204096E-06, 3.801211E-04, -1.755207E-04, -1.512904E-04, 2.198688E-04, -2.016680E-05, -1.883914E-04, 1.562241E-04, 7.774205E-05, -2.260120E-04, 1.034472E-04, 0.000000E+00, 0.000000E+00],
  [4.071417E-05, 2.385677E-04, 4.821259E-04, -1.360207E-04, -2.049780E-03, -2.740754E-03, 3.559413E-04, 3.501255E-03, 1.205342E-03, -2.957772E-03, -2.027042E-03, 1.437100E-03, 1.545403E-03, -3.041473E-04, -8.327606E-04, -1.418412E-04, 5.016940E-04, 1.206599E-04, -3.080733E-04, -6.264061E-06, 1.260336E-04, -3.434370E-06, -2.334173E-05, -6.330006E-05, 4.708314E-05, 8.554039E-05, -1.293282E-04, -4.423785E-06, 1.505904E-04, 0.000000E+00, 0.000000E+00],
  [-2.200894E-05, -3.339354E-05, 2.241646E-04, 9.534058E-04, 1.242861E-03, -2.137918E-04, -1.955167E-03, -7.711583E-04, 1.976056E-03, 1.465787E-03, -1.402505E-03, -1.483678E-03, 6.356295E-04, 9.543803E-04, -1.418412E-04, -5.167066E-04, -5.522939E-05, 3.606876E-04, 2.424680E-06, -2.620073E-04, 1.120252E-04, 1.296073E-04, -1.643466E-04, 3.140401E-06, 1.401426E-04, -1.011680E-04, -5.984543E-05, 1.414269E-04, -4.933678E-05, 0.000000E+00, 0.000000E+00],
  [-1.419849E-05, -8.875357E-05, -2.793806E-04, -3.284127E-04, 3.123232E-04, 1.173505E-03, 6.107529E-04, -1.078365E-03, -1.021195E-03, 9.236757E-04, 1.178995E-03, -5.883761E-04, -9.269868E-04, 2.710224E-04, 5.016940E-04, -5.522939E-05, -2.242093E-04, -6.146944E-05, 1.421355E-04, 5.503434E-05, -9.702182E-05, -2.604622E-05, 5.298568E-05, 2.979617E-05, -4.688557E-05, -3.220206E-05, 7.144613E-05, -3.507892E-06, -7.662905E-05, 0.000000E+00, 0.000000E+00],
  [2.551067E-05, 6.795223E-05, 4.621052E-05, -2.249838E-04, -6.442442E-04, -4.765108E-04, 4.688703E-04, 7.444809E-04, -3.839504E-04, -9.020367E-04, 2.977160E-04, 8.838606E-04, -1.896387E-04, -6.455173E-04, 1.206599E-04, 3.606876E-04, -6.146944E-05, -1.889304E-04, 2.486044E-05, 1.364902E-04, -5.867998E-05, -8.511102E-05, 9.891416E-05, 8.063133E-06, -9.249560E-05, 5.819965E-05, 4.303345E-05, -8.557887E-05, 2.371828E-05, 0.000000E+00, 0.000000E+00],
  [-1.170409E-05, 1.221974E-06, 9.765046E-05, 2.444919E-04, 1.767125E-04, -2.453141E-04, -4.555357E-04, 7.234289E-05, 5.184762E-04, -2.540430E-05, -5.487008E-04, 7.533075E-08, 4.750714E-04, 2.204096E-06, -3.080733E-04, 2.424680E-06, 1.421355E-04, 2.486044E-05, -5.852472E-05, -5.702526E-05, 5.664699E-05, 4.328764E-05, -5.839918E-05, -1.670765E-05, 4.846771E-05, 4.259037E-07, -4.186458E-05, 1.599998E-05, 3.304303E-05, 0.000000E+00, 0.000000E+00],
  [-8.212915E-06, -4.347984E-05, -9.578892E-05, -5.273738E-05, 1.948711E-04, 3.770061E-04, 6.340678E-05, -3.673984E-04, -9.950886E-05, 4.078258E-04, 8.710071E-05, -4.341626E-04, -5.443344E-05, 3.801211E-04, -6.264061E-06, -2.620073E-04, 5.503434E-05, 1.364902E-04, -5.702526E-05, -6.064293E-05, 4.003823E-05, 3.763157E-05, -4.776794E-05, -1.120693E-05, 5.376530E-05, -2.685928E-05, -3.259573E-05, 5.158526E-05, -1.010959E-05, 0.000000E+00, 0.000000E+00],
  [1.806499E-05, 3.920000E-05, 2.961705E-05, -5.291749E-05, -1.807671E-04, -1.515812E-04, 1.109795E-04, 2.068155E-04, -9.169147E-05, -2.225507E-04, 1.085068E-04, 2.148718E-04, -1.278870E-04, -1.755207E-04, 1.260336E-04, 1.120252E-04, -9.702182E-05, -5.867998E-05, 5.664699E-05, 4.003823E-05, -3.746512E-05, -3.644050E-05, 4.573046E-05, 1.476607E-05, -4.633540E-05, 1.113077E-05, 3.235768E-05, -2.787714E-05, -1.035726E-05, 0.000000E+00, 0.000000E+00],
  [-1.395894E-05, -4.883317E-06, 3.954912E-05, 5.505229E-05, -1.280006E-05, -9.463987E-05, -5.453950E-05, 6.581830E-05, 3.809487E-05, -9.747453E-05, -2.678600E-05, 1.395523E-04, 2.246916E-05, -1.512904E-04, -3.434370E-06, 1.296073E-04, -2.604622E-05, -8.511102E-05, 4.328764E-05, 3.763157E-05, -3.644050E-05, -1.157021E-05, 2.387206E-05, 6.106475E-06, -2.607700E-05, 7.780802E-06, 2.252387E-05, -2.608739E-05, -1.248788E-07, 0.000000E+00, 0.000000E+00],
  [2.733343E-06, -2.800591E-05, -8.100727E-05, -4.773953E-05, 1.168547E-04, 2.058387E-04, 6.481239E-06, -2.118375E-04, -2.811697E-05, 2.410660E-04, 3.245262E-05, -2.479159E-04, -1.304836E-05, 2.198688E-04, -2.334173E-05, -1.643466E-04, 5.298568E-05, 9.891416E-05, -5.839918E-05, -4.776794E-05, 4.573046E-05, 2.387206E-05, -3.835630E-05, -1.116365E-05, 4.172141E-05, -1.293740E-05, -3.128876E-05, 3.517885E-05, 1.104477E-06, 0.000000E+00, 0.000000E+00],
  [6.054836E-06, 3.344671E-05, 7.058605E-05, 5.835649E-05, -4.615454E-05, -1.481671E-04, -6.861258E-05, 1.295928E-04, 1.249467E-04, -9.542216E-05, -1.411072E-04, 5.012806E-05, 1.095346E-04, -2.016680E-05, -6.330006E-05, 3.140401E-06, 2.979617E-05, 8.063133E-06, -1.670765E-05, -1.120693E-05, 1.476607E-05, 6.106475E-06, -1.116365E-05, -2.413614E-06, 7.190756E-06, 3.388218E-06, -9.947222E-06, 1.516847E-06, 9.834853E-06, 0.000000E+00, 0.000000E+00],
  [-7.903097E-06, -8.902254E-06, -3.687966E-06, -3.624512E-05, -9.117261E-05, -3.915705E-05, 1.174867E-04, 1.117125E-04, -1.267755E-04, -1.888720E-04, 9.529105E-05, 2.151081E-04, -6.071245E-05, -1.883914E-04, 4.708314E-05, 1.401426E-04, -4.688557E-05, -9.249560E-05, 4.846771E-05, 5.376530E-05, -4.633540E-05, -2.607700E-05, 4.172141E-05, 7.190756E-06, -3.840841E-05, 1.181642E-05, 2.981955E-05, -3.225865E-05, -3.328966E-06, 0.000000E+00, 0.000000E+00],
  [5.246115E-06, -2.259937E-05, -8.096613E-05, -5.083156E-05, 1.266643E-04, 2.230380E-04, -4.881878E-06, -2.717343E-04, -8.650206E-05, 2.792243E-04, 1.517770E-04, -2.233027E-04, -1.405342E-04, 1.562241E-04, 8.554039E-05, -1.011680E-04, -3.220206E-05, 5.819965E-05, 4.259037E-07, -2.685928E-05, 1.113077E-05, 7.780802E-06, -1.293740E-05, 3.388218E-06, 1.181642E-05, -1.404561E-05, -3.195657E-06, 2.051130E-05, -1.529981E-05, 0.000000E+00, 0.000000E+00],
  [-3.158180E-06, 3.178095E-05, 1.158892E-04, 1.470689E-04, 3.089635E-06, -2.268536E-04, -2.112515E-04, 1.356762E-04, 3.109910E-04, -1.525519E-05, -2.998561E-04, -6.572037E-05, 2.148523E-04, 7.774205E-05, -1.293282E-04, -5.984543E-05, 7.144613E-05, 4.303345E-05, -4.186458E-05, -3.259573E-05, 3.235768E-05, 2.252387E-05, -3.128876E-05, -9.947222E-06, 2.981955E-05, -3.195657E-06, -2.518454E-05, 1.622862E-05, 1.409870E-05, 0.000000E+00, 0.000000E+00],
  [3.758101E-06, -9.114270E-06, -5.960603E-05, -1.455480E-04, -1.826132E-04, -7.202115E-06, 2.810027E-04, 2.188156E-04, -2.257723E-04, -3.433265E-04, 9.540587E-05, 3.184341E-04, -1.377369E-05, -2.260120E-04, -4.423785E-06, 1.414269E-04, -3.507892E-06, -8.557887E-05, 1.599998E-05, 5.158526E-05, -2.787714E-05, -2.608739E-05, 3.517885E-05, 1.516847E-06, -3.225865E-05, 2.051130E-05, 1.622862E-05, -3.240062E-05, 9.871935E-06, 0.000000E+00, 0.000000E+00],
  [-4.575497E-06, -2.553524E-05, -5.702072E-05, -1.938659E-07, 2.118272E-04, 3.050118E-04, -3.886524E-05, -4.257932E-04, -1.784652E-04, 3.628489E-04, 2.872758E-04, -2.115270E-04, -2.434178E-04, 1.034472E-04, 1.505904E-04, -4.933678E-05, -7.662905E-05, 2.371828E-05, 3.304303E-05, -1.010959E-05, -1.035726E-05, -1.248788E-07, 1.104477E-06, 9.834853E-06, -3.328966E-06, -1.529981E-05, 1.409870E-05, 9.871935E-06, -2.431481E-05, 0.000000E+00, 0.000000E+00],
  [0.000000E+00, 0.000000E+00, 0.000000E+00, 0.000000E+00, 0.000000E+00, 0.000000E+00, 0.000000E+00, 0.000000E+00, 0.000000E+00, 0.000000E+00, 0.000000E+00, 0.000000E+00, 0.000000E+00, 0.000000E+00, 0.000000E+00, 0.000000E+00, 0.000000E+00, 0.000000E+00, 0.000000E+00, 0.000000E+00, 0.000000E+00, 0.000000E+00, 0.000000E+00, 0.000000E+00, 0.000000E+00, 0.000000E+00, 0.000000E+00, 0.000000E+00, 0.000000E+00, 0.000000E+00, 0.000000E+00],
  [0.000000E+00, 0.000000E+00, 0.000000E+00, 0.000000E+00, 0.000000E+00, 0.000000E+00, 0.000000E+00, 0.000000E+00, 0.000000E+00, 0.000000E+00, 0.000000E+00, 0.000000E+00, 0.000000E+00, 0.000000E+00, 0.000000E+00, 0.000000E+00, 0.000000E+00, 0.000000E+00, 0.000000E+00, 0.000000E+00, 0.000000E+00, 0.000000E+00, 0.000000E+00, 0.000000E+00, 0.000000E+00, 0.000000E+00, 0.000000E+00, 0.000000E+00, 0.000000E+00, 0.000000E+00, 0.000000E+00]]

/-- `Daejeon16_public_v2.f90` 301-333. -/
def unc1g4 : List (List Num) := [
  [-2.689816E-01, -1.849138E-01, -6.640819E-02, -1.936153E-03, 8.657470E-03, 1.381555E-03, -1.502030E-03, -2.009434E-04, 3.520607E-04, -1.201755E-05, -8.725827E-05, 2.337146E-05, 2.065360E-05, -1.297598E-05, -5.866388E-06, 1.004481E-05, -1.759910E-06, -6.833003E-06, 7.914404E-06, -2.021764E-06, -4.780938E-06, 6.728313E-06, -2.959803E-06, -2.427567E-06, 4.515472E-06, -1.951639E-06, -2.247566E-06, 3.800244E-06, -1.079296E-06, 0.000000E+00, 0.000000E+00],
  [-1.849138E-01, -3.128918E-01, -2.091168E-01, -5.716107E-02, 1.378926E-02, 1.207681E-02, -1.750742E-03, -2.449869E-03, 6.835266E-04, 5.062530E-04, -3.105868E-04, -6.760725E-05, 1.214212E-04, -1.915385E-05, -3.608361E-05, 2.145097E-05, 6.602764E-06, -1.449076E-05, 4.476272E-06, 8.849856E-06, -1.405774E-05, 7.295915E-06, 6.734419E-06, -1.731724E-05, 1.535338E-05, -1.252763E-06, -1.448124E-05, 1.948627E-05, -9.721376E-06, 0.000000E+00, 0.000000E+00],
  [-6.640819E-02, -2.091168E-01, -2.802684E-01, -1.640960E-01, -2.320639E-02, 2.345429E-02, 7.133330E-03, -4.908240E-03, -1.047308E-03, 1.519037E-03, -1.115277E-04, -4.605273E-04, 1.972079E-04, 9.428287E-05, -1.057458E-04, 5.603459E-07, 4.451898E-05, -1.777388E-05, -1.720989E-05, 2.506556E-05, -1.205722E-05, -5.267260E-06, 1.818968E-05, -2.276304E-05, 1.538721E-05, 3.038706E-06, -2.255907E-05, 2.906780E-05, -1.607534E-05, 0.000000E+00, 0.000000E+00],
  [-1.936153E-03, -5.716107E-02, -1.640960E-01, -1.999467E-01, -9.980128E-02, 1.458821E-03, 1.999228E-02, 7.224677E-04, -4.185958E-03, 8.532631E-04, 9.084813E-04, -6.895397E-04, -6.365769E-05, 3.183411E-04, -1.063434E-04, -9.645529E-05, 9.023851E-05, 6.277958E-06, -4.886571E-05, 2.101923E-05, 1.653804E-05, -2.212404E-05, 4.219963E-06, 9.191888E-06, -6.877056E-06, -7.795575E-07, 1.189556E-06, 5.113783E-06, -8.199191E-06, 0.000000E+00, 0.000000E+00],
  [8.657470E-03, 1.378926E-02, -2.320639E-02, -9.980128E-02, -1.231191E-01, -5.367015E-02, 9.135929E-03, 1.295401E-02, -1.392171E-03, -2.112390E-03, 9.805408E-04, -1.071385E-05, -4.364809E-04, 2.912627E-04, 7.142186E-05, -1.853135E-04, 5.445066E-05, 6.887566E-05, -6.338600E-05, -1.007104E-05, 5.122966E-05, -2.708721E-05, -2.355372E-05, 4.618315E-05, -2.345317E-05, -1.718163E-05, 3.764623E-05, -2.543967E-05, -2.210197E-06, 0.000000E+00, 0.000000E+00],
  [1.381555E-03, 1.207681E-02, 2.345429E-02, 1.458821E-03, -5.367015E-02, -7.255657E-02, -2.783393E-02, 1.016063E-02, 8.373226E-03, -1.649521E-03, -1.280755E-03, 4.897980E-04, -1.260806E-04, -5.041464E-05, 1.901802E-04, -9.828982E-05, -5.914984E-05, 8.956781E-05, -2.162268E-05, -3.784627E-05, 4.317759E-05, -9.607938E-06, -2.726664E-05, 3.642801E-05, -1.078023E-05, -2.484884E-05, 3.579674E-05, -1.369883E-05, -1.543828E-05, 0.000000E+00, 0.000000E+00],
  [-1.502030E-03, -1.750742E-03, 7.133330E-03, 1.999228E-02, 9.135929E-03, -2.783393E-02, -4.139464E-02, -1.282017E-02, 9.185271E-03, 4.906828E-03, -1.888939E-03, -8.467173E-04, 3.770055E-04, -3.556900E-05, 2.982414E-05, 6.004804E-05, -8.774868E-05, 6.848220E-06, 4.535799E-05, -2.218222E-05, -1.202365E-05, 1.390595E-05, -8.875799E-07, -3.920899E-06, 5.141028E-06, -1.061203E-05, 8.251259E-06, 1.301841E-05, -3.366016E-05, 0.000000E+00, 0.000000E+00],
  [-2.009434E-04, -2.449869E-03, -4.908240E-03, 7.224677E-04, 1.295401E-02, 1.016063E-02, -1.282017E-02, -2.234488E-02, -5.089687E-03, 6.795182E-03, 2.345609E-03, -1.687864E-03, -4.156828E-04, 3.143084E-04, -2.646763E-06, 3.127559E-05, -1.033022E-05, -6.061445E-05, 4.576842E-05, 2.099912E-05, -4.440255E-05, 9.788605E-06, 2.591443E-05, -2.039971E-05, -7.517481E-06, 1.428102E-05, 5.153612E-06, -1.228373E-05, -1.529956E-05, 0.000000E+00, 0.000000E+00],
  [3.520607E-04, 6.835266E-04, -1.047308E-03, -4.185958E-03, -1.392171E-03, 8.373226E-03, 9.185271E-03, -5.089687E-03, -1.200116E-02, -1.839102E-03, 4.489774E-03, 9.073387E-04, -1.281416E-03, -1.248286E-04, 2.573143E-04, -5.555770E-06, -7.728228E-06, -2.246674E-05, -5.203458E-06, 2.656340E-05, -1.495956E-05, -9.242193E-06, 2.299989E-05, -1.032244E-05, -2.145419E-05, 3.374874E-05, 1.280661E-06, -5.147975E-05, 4.903425E-05, 0.000000E+00, 0.000000E+00],
  [-1.201755E-05, 5.062530E-04, 1.519037E-03, 8.532631E-04, -2.112390E-03, -1.649521E-03, 4.906828E-03, 6.795182E-03, -1.839102E-03, -6.554159E-03, -5.425045E-04, 2.775018E-03, 2.005312E-04, -8.538186E-04, 4.037071E-05, 1.680690E-04, -2.320652E-05, -2.254860E-06, -1.788649E-05, -5.598363E-06, 1.998242E-05, -1.540531E-06, -7.914443E-06, -6.731887E-06, 8.661398E-06, 1.970284E-05, -3.571547E-05, -3.474367E-06, 6.529187E-05, 0.000000E+00, 0.000000E+00],
  [-8.725827E-05, -3.105868E-04, -1.115277E-04, 9.084813E-04, 9.805408E-04, -1.280755E-03, -1.888939E-03, 2.345609E-03, 4.489774E-03, -5.425045E-04, -3.661840E-03, -8.927083E-05, 1.656133E-03, -7.096857E-05, -5.286199E-04, 9.273439E-05, 1.090143E-04, -2.427625E-05, -1.698906E-05, -1.216775E-05, 1.794231E-05, 1.273344E-05, -2.911988E-05, 5.732089E-07, 3.928415E-05, -3.045548E-05, -3.063736E-05, 7.116027E-05, -2.693560E-05, 0.000000E+00, 0.000000E+00],
  [2.337146E-05, -6.760725E-05, -4.605273E-04, -6.895397E-04, -1.071385E-05, 4.897980E-04, -8.467173E-04, -1.687864E-03, 9.073387E-04, 2.775018E-03, -8.927083E-05, -2.083348E-03, 6.060451E-05, 9.629636E-04, -1.526131E-04, -2.960556E-04, 1.018957E-04, 4.838314E-05, -2.883057E-05, -6.035236E-07, 4.998151E-06, -4.258192E-06, -8.694416E-06, 2.086430E-05, 1.083380E-07, -4.009117E-05, 3.907329E-05, 2.252049E-05, -7.925676E-05, 0.000000E+00, 0.000000E+00],
  [2.065360E-05, 1.214212E-04, 1.972079E-04, -6.365769E-05, -4.364809E-04, -1.260806E-04, 3.770055E-04, -4.156828E-04, -1.281416E-03, 2.005312E-04, 1.656133E-03, 6.060451E-05, -1.206014E-03, 8.573501E-05, 5.603862E-04, -1.415976E-04, -1.649103E-04, 7.537287E-05, 2.589935E-05, -9.849897E-06, -1.032274E-05, -1.348487E-05, 2.574249E-05, 8.241621E-06, -4.360560E-05, 2.184643E-05, 4.113408E-05, -6.633301E-05, 1.134083E-05, 0.000000E+00, 0.000000E+00],
  [-1.297598E-05, -1.915385E-05, 9.428287E-05, 3.183411E-04, 2.912627E-04, -5.041464E-05, -3.556900E-05, 3.143084E-04, -1.248286E-04, -8.538186E-04, -7.096857E-05, 9.629636E-04, 8.573501E-05, -6.982770E-04, 8.360093E-05, 3.164466E-04, -1.188262E-04, -8.007730E-05, 6.409593E-05, 2.978394E-06, -2.457329E-05, 1.064877E-05, 1.620564E-05, -2.615928E-05, -2.606346E-06, 4.154981E-05, -3.524487E-05, -2.160307E-05, 6.607550E-05, 0.000000E+00, 0.000000E+00],
  [-5.866388E-06, -3.608361E-05, -1.057458E-04, -1.063434E-04, 7.142186E-05, 1.901802E-04, 2.982414E-05, -2.646763E-06, 2.573143E-04, 4.037071E-05, -5.286199E-04, -1.526131E-04, 5.603862E-04, 8.360093E-05, -4.141128E-04, 5.968734E-05, 1.834018E-04, -7.739425E-05, -4.107600E-05, 2.697300E-05, 6.495142E-06, 8.090717E-06, -2.073619E-05, -7.625309E-06, 3.817822E-05, -1.982745E-05, -3.192665E-05, 5.261641E-05, -1.211869E-05, 0.000000E+00, 0.000000E+00],
  [1.004481E-05, 2.145097E-05, 5.603459E-07, -9.645529E-05, -1.853135E-04, -9.828982E-05, 6.004804E-05, 3.127559E-05, -5.555770E-06, 1.680690E-04, 9.273439E-05, -2.960556E-04, -1.415976E-04, 3.164466E-04, 5.968734E-05, -2.420275E-04, 5.141885E-05, 1.020854E-04, -6.648721E-05, -1.312558E-05, 3.746897E-05, -1.584973E-05, -1.666278E-05, 2.749478E-05, -2.427885E-06, -3.158625E-05, 3.094648E-05, 8.768343E-06, -4.356199E-05, 0.000000E+00, 0.000000E+00],
  [-1.759910E-06, 6.602764E-06, 4.451898E-05, 9.023851E-05, 5.445066E-05, -5.914984E-05, -8.774868E-05, -1.033022E-05, -7.728228E-06, -2.320652E-05, 1.090143E-04, 1.018957E-04, -1.649103E-04, -1.188262E-04, 1.834018E-04, 5.141885E-05, -1.465564E-04, 2.435948E-05, 6.187884E-05, -2.694829E-05, -1.589152E-05, 3.002028E-06, 1.742168E-05, -9.185921E-07, -2.676473E-05, 2.102306E-05, 1.457745E-05, -3.603939E-05, 1.735668E-05, 0.000000E+00, 0.000000E+00],
  [-6.833003E-06, -1.449076E-05, -1.777388E-05, 6.277958E-06, 6.887566E-05, 8.956781E-05, 6.848220E-06, -6.061445E-05, -2.246674E-05, -2.254860E-06, -2.427625E-05, 4.838314E-05, 7.537287E-05, -8.007730E-05, -7.739425E-05, 1.020854E-04, 2.435948E-05, -8.540555E-05, 3.291818E-05, 2.707820E-05, -3.673015E-05, 1.299435E-05, 1.457300E-05, -2.419581E-05, 7.684162E-06, 1.781688E-05, -2.359567E-05, 2.832594E-06, 2.121632E-05, 0.000000E+00, 0.000000E+00],
  [7.914404E-06, 4.476272E-06, -1.720989E-05, -4.886571E-05, -6.338600E-05, -2.162268E-05, 4.535799E-05, 4.576842E-05, -5.203458E-06, -1.788649E-05, -1.698906E-05, -2.883057E-05, 2.589935E-05, 6.409593E-05, -4.107600E-05, -6.648721E-05, 6.187884E-05, 3.291818E-05, -6.081585E-05, 5.233279E-06, 3.302095E-05, -1.220261E-05, -1.807640E-05, 1.269930E-05, 1.304500E-05, -2.026481E-05, 8.672032E-07, 1.939331E-05, -1.769034E-05, 0.000000E+00, 0.000000E+00],
  [-2.021764E-06, 8.849856E-06, 2.506556E-05, 2.101923E-05, -1.007104E-05, -3.784627E-05, -2.218222E-05, 2.099912E-05, 2.656340E-05, -5.598363E-06, -1.216775E-05, -6.035236E-07, -9.849897E-06, 2.978394E-06, 2.697300E-05, -1.312558E-05, -2.694829E-05, 2.707820E-05, 5.233279E-06, -2.298794E-05, 1.615659E-05, -1.807498E-06, -9.392566E-06, 1.321009E-05, -6.522304E-06, -5.890687E-06, 1.204742E-05, -6.098833E-06, -4.898815E-06, 0.000000E+00, 0.000000E+00],
  [-4.780938E-06, -1.405774E-05, -1.205722E-05, 1.653804E-05, 5.122966E-05, 4.317759E-05, -1.202365E-05, -4.440255E-05, -1.495956E-05, 1.998242E-05, 1.794231E-05, 4.998151E-06, -1.032274E-05, -2.457329E-05, 6.495142E-06, 3.746897E-05, -1.589152E-05, -3.673015E-05, 3.302095E-05, 1.615659E-05, -3.737304E-05, 1.014506E-05, 2.111968E-05, -1.945335E-05, -4.075584E-06, 1.728941E-05, -8.362079E-06, -7.797834E-06, 1.303506E-05, 0.000000E+00, 0.000000E+00],
  [6.728313E-06, 7.295915E-06, -5.267260E-06, -2.212404E-05, -2.708721E-05, -9.607938E-06, 1.390595E-05, 9.788605E-06, -9.242193E-06, -1.540531E-06, 1.273344E-05, -4.258192E-06, -1.348487E-05, 1.064877E-05, 8.090717E-06, -1.584973E-05, 3.002028E-06, 1.299435E-05, -1.220261E-05, -1.807498E-06, 1.014506E-05, -5.513092E-06, -2.212288E-06, 3.228053E-06, 8.766754E-07, -3.108859E-06, 8.714846E-07, 2.689712E-06, -3.729553E-06, 0.000000E+00, 0.000000E+00],
  [-2.959803E-06, 6.734419E-06, 1.818968E-05, 4.219963E-06, -2.355372E-05, -2.726664E-05, -8.875799E-07, 2.591443E-05, 2.299989E-05, -7.914443E-06, -2.911988E-05, -8.694416E-06, 2.574249E-05, 1.620564E-05, -2.073619E-05, -1.666278E-05, 1.742168E-05, 1.457300E-05, -1.807640E-05, -9.392566E-06, 2.111968E-05, -2.212288E-06, -1.740774E-05, 1.349020E-05, 4.147438E-06, -1.263578E-05, 5.528660E-06, 5.212362E-06, -7.555547E-06, 0.000000E+00, 0.000000E+00],
  [-2.427567E-06, -1.731724E-05, -2.276304E-05, 9.191888E-06, 4.618315E-05, 3.642801E-05, -3.920899E-06, -2.039971E-05, -1.032244E-05, -6.731887E-06, 5.732089E-07, 2.086430E-05, 8.241621E-06, -2.615928E-05, -7.625309E-06, 2.749478E-05, -9.185921E-07, -2.419581E-05, 1.269930E-05, 1.321009E-05, -1.945335E-05, 3.228053E-06, 1.349020E-05, -1.359812E-05, 5.177162E-07, 1.021029E-05, -8.761961E-06, -8.928729E-07, 7.964295E-06, 0.000000E+00, 0.000000E+00],
  [4.515472E-06, 1.535338E-05, 1.538721E-05, -6.877056E-06, -2.345317E-05, -1.078023E-05, 5.141028E-06, -7.517481E-06, -2.145419E-05, 8.661398E-06, 3.928415E-05, 1.083380E-07, -4.360560E-05, -2.606346E-06, 3.817822E-05, -2.427885E-06, -2.676473E-05, 7.684162E-06, 1.304500E-05, -6.522304E-06, -4.075584E-06, 8.766754E-07, 4.147438E-06, 5.177162E-07, -6.988354E-06, 4.293016E-06, 4.328326E-06, -7.568754E-06, 1.763834E-06, 0.000000E+00, 0.000000E+00],
  [-1.951639E-06, -1.252763E-06, 3.038706E-06, -7.795575E-07, -1.718163E-05, -2.484884E-05, -1.061203E-05, 1.428102E-05, 3.374874E-05, 1.970284E-05, -3.045548E-05, -4.009117E-05, 2.184643E-05, 4.154981E-05, -1.982745E-05, -3.158625E-05, 2.102306E-05, 1.781688E-05, -2.026481E-05, -5.890687E-06, 1.728941E-05, -3.108859E-06, -1.263578E-05, 1.021029E-05, 4.293016E-06, -1.217657E-05, 5.679521E-06, 5.885388E-06, -9.573597E-06, 0.000000E+00, 0.000000E+00],
  [-2.247566E-06, -1.448124E-05, -2.255907E-05, 1.189556E-06, 3.764623E-05, 3.579674E-05, 8.251259E-06, 5.153612E-06, 1.280661E-06, -3.571547E-05, -3.063736E-05, 3.907329E-05, 4.113408E-05, -3.524487E-05, -3.192665E-05, 3.094648E-05, 1.457745E-05, -2.359567E-05, 8.672032E-07, 1.204742E-05, -8.362079E-06, 8.714846E-07, 5.528660E-06, -8.761961E-06, 4.328326E-06, 5.679521E-06, -1.081761E-05, 4.842638E-06, 5.946192E-06, 0.000000E+00, 0.000000E+00],
  [3.800244E-06, 1.948627E-05, 2.906780E-05, 5.113783E-06, -2.543967E-05, -1.369883E-05, 1.301841E-05, -1.228373E-05, -5.147975E-05, -3.474367E-06, 7.116027E-05, 2.252049E-05, -6.633301E-05, -2.160307E-05, 5.261641E-05, 8.768343E-06, -3.603939E-05, 2.832594E-06, 1.939331E-05, -6.098833E-06, -7.797834E-06, 2.689712E-06, 5.212362E-06, -8.928729E-07, -7.568754E-06, 5.885388E-06, 4.842638E-06, -1.103941E-05, 5.046867E-06, 0.000000E+00, 0.000000E+00],
  [-1.079296E-06, -9.721376E-06, -1.607534E-05, -8.199191E-06, -2.210197E-06, -1.543828E-05, -3.366016E-05, -1.529956E-05, 4.903425E-05, 6.529187E-05, -2.693560E-05, -7.925676E-05, 1.134083E-05, 6.607550E-05, -1.211869E-05, -4.356199E-05, 1.735668E-05, 2.121632E-05, -1.769034E-05, -4.898815E-06, 1.303506E-05, -3.729553E-06, -7.555547E-06, 7.964295E-06, 1.763834E-06, -9.573597E-06, 5.946192E-06, 5.046867E-06, -1.085732E-05, 0.000000E+00, 0.000000E+00],
  [0.000000E+00, 0.000000E+00, 0.000000E+00, 0.000000E+00, 0.000000E+00, 0.000000E+00, 0.000000E+00, 0.000000E+00, 0.000000E+00, 0.000000E+00, 0.000000E+00, 0.000000E+00, 0.000000E+00, 0.000000E+00, 0.000000E+00, 0.000000E+00, 0.000000E+00, 0.000000E+00, 0.000000E+00, 0.000000E+00, 0.000000E+00, 0.000000E+00, 0.000000E+00, 0.000000E+00, 0.000000E+00, 0.000000E+00, 0.000000E+00, 0.000000E+00, 0.000000E+00, 0.000000E+00, 0.000000E+00],
  [0.000000E+00, 0.000000E+00, 0.000000E+00, 0.000000E+00, 0.000000E+00, 0.000000E+00, 0.000000E+00, 0.000000E+00, 0.000000E+00, 0.000000E+00, 0.000000E+00, 0.000000E+00, 0.000000E+00, 0.000000E+00, 0.000000E+00, 0.000000E+00, 0.000000E+00, 0.000000E+00, 0.000000E+00, 0.000000E+00, 0.000000E+00, 0.000000E+00, 0.000000E+00, 0.000000E+00, 0.000000E+00, 0.000000E+00, 0.000000E+00, 0.000000E+00, 0.000000E+00, 0.000000E+00, 0.000000E+00]]

/-- `Daejeon16_public_v2.f90` 334-366. -/
def unc3g4 : List (List Num) := [
  [-1.413092E+00, -9.149857E-01, -2.720739E-01, 3.567165E-02, 5.452771E-02, 1.796327E-03, -1.148081E-02, -5.772810E-04, 2.869522E-03, -1.432437E-04, -7.709410E-04, 1.866128E-04, 2.014674E-04, -1.155631E-04, -4.949886E-05, 7.944667E-05, -1.465585E-05, -4.525764E-05, 5.138249E-05, -1.390430E-05, -2.769614E-05, 3.993167E-05, -1.880052E-05, -1.181826E-05, 2.394279E-05, -1.013698E-05, -1.220280E-05, 1.890023E-05, -1.741852E-06, 0.000000E+00, 0.000000E+00],
  [-9.149857E-01, -1.508830E+00, -9.153423E-01, -1.479908E-01, 1.385401E-01, 6.166762E-02, -2.638001E-02, -1.697159E-02, 7.778313E-03, 4.172347E-03, -2.986189E-03, -7.088641E-04, 1.167894E-03, -1.136471E-04, -3.803991E-04, 1.968000E-04, 6.881220E-05, -1.321099E-04, 4.804156E-05, 5.461148E-05, -9.712579E-05, 5.818136E-05, 3.251217E-05, -1.069130E-04, 1.020580E-04, -1.339132E-05, -9.316732E-05, 1.305734E-04, -6.340905E-05, 0.000000E+00, 0.000000E+00],
  [-2.720739E-01, -9.153423E-01, -1.188574E+00, -5.697108E-01, 6.517082E-02, 1.685541E-01, 7.239249E-03, -4.890003E-02, -1.194989E-03, 1.561639E-02, -1.989606E-03, -4.856283E-03, 1.936924E-03, 1.141145E-03, -1.087025E-03, -3.167523E-05, 4.477908E-04, -1.938608E-04, -1.061534E-04, 1.801583E-04, -1.061292E-04, 3.070654E-06, 9.087240E-05, -1.570552E-04, 1.464142E-04, -2.601481E-05, -1.504285E-04, 2.526054E-04, -1.764716E-04, 0.000000E+00, 0.000000E+00],
  [3.567165E-02, -1.479908E-01, -5.697108E-01, -6.728718E-01, -2.047358E-01, 1.544715E-01, 9.674415E-02, -4.462591E-02, -3.252948E-02, 1.858765E-02, 8.768383E-03, -8.679326E-03, -9.890833E-04, 3.635707E-03, -8.935207E-04, -1.121932E-03, 8.521716E-04, 9.284276E-05, -4.238983E-04, 1.705594E-04, 1.079843E-04, -1.245200E-04, -3.973814E-06, 5.339636E-05, 2.955773E-05, -1.083652E-04, 4.289136E-05, 1.385898E-04, -2.529841E-04, 0.000000E+00, 0.000000E+00],
  [5.452771E-02, 1.385401E-01, 6.517082E-02, -2.047358E-01, -2.883599E-01, -3.584899E-02, 1.117564E-01, 2.234974E-02, -4.451844E-02, -3.966775E-03, 1.835557E-02, -2.747895E-03, -6.635268E-03, 3.371736E-03, 1.473860E-03, -2.058648E-03, 3.021057E-04, 7.961759E-04, -5.720556E-04, -1.074679E-04, 4.249538E-04, -2.237875E-04, -1.701096E-04, 3.551432E-04, -1.772551E-04, -1.799958E-04, 3.750408E-04, -2.147039E-04, -1.701904E-04, 0.000000E+00, 0.000000E+00],
  [1.796327E-03, 6.166762E-02, 1.685541E-01, 1.544715E-01, -3.584899E-02, -1.296608E-01, -6.636940E-03, 5.815880E-02, -1.975287E-03, -2.461997E-02, 6.432394E-03, 8.780487E-03, -5.659400E-03, -1.691482E-03, 3.159141E-03, -6.982330E-04, -1.046362E-03, 8.889372E-04, -6.602913E-05, -3.810893E-04, 3.493001E-04, -1.108056E-04, -1.397462E-04, 2.872595E-04, -2.297677E-04, -3.529655E-05, 3.269853E-04, -3.868960E-04, 1.132682E-04, 0.000000E+00, 0.000000E+00],
  [-1.148081E-02, -2.638001E-02, 7.239249E-03, 9.674415E-02, 1.117564E-01, -6.636940E-03, -7.307390E-02, -6.439136E-04, 3.301939E-02, -5.801153E-03, -1.286271E-02, 6.655399E-03, 3.251476E-03, -4.297416E-03, 4.391045E-04, 1.727809E-03, -1.044269E-03, -2.538432E-04, 5.940372E-04, -1.686418E-04, -1.964526E-04, 1.467329E-04, 7.984768E-05, -1.393483E-04, -2.215809E-05, 1.853105E-04, -1.416112E-04, -8.527812E-05, 2.735936E-04, 0.000000E+00, 0.000000E+00],
  [-5.772810E-04, -1.697159E-02, -4.890003E-02, -4.462591E-02, 2.234974E-02, 5.815880E-02, -6.439136E-04, -3.959687E-02, 3.044529E-03, 1.840878E-02, -6.248924E-03, -6.205427E-03, 5.235913E-03, 5.399937E-04, -2.659464E-03, 1.118058E-03, 6.331602E-04, -9.178825E-04, 2.774225E-04, 2.937588E-04, -3.936297E-04, 1.495418E-04, 1.525081E-04, -2.851915E-04, 1.682033E-04, 9.970597E-05, -3.012487E-04, 2.598817E-04, 1.282841E-05, 0.000000E+00, 0.000000E+00],
  [2.869522E-03, 7.778313E-03, -1.194989E-03, -3.252948E-02, -4.451844E-02, -1.975287E-03, 3.301939E-02, 3.044529E-03, -2.199922E-02, 2.703269E-03, 1.010016E-02, -4.773947E-03, -2.722106E-03, 3.441318E-03, -4.305324E-04, -1.374674E-03, 9.362925E-04, 1.175674E-04, -4.800766E-04, 1.976862E-04, 1.005303E-04, -1.047963E-04, -3.079782E-05, 6.061442E-05, 4.692280E-05, -1.342378E-04, 7.093437E-05, 1.014528E-04, -2.173011E-04, 0.000000E+00, 0.000000E+00],
  [-1.432437E-04, 4.172347E-03, 1.561639E-02, 1.858765E-02, -3.966775E-03, -2.461997E-02, -5.801153E-03, 1.840878E-02, 2.703269E-03, -1.264577E-02, 2.232566E-03, 5.602073E-03, -3.399189E-03, -1.030748E-03, 2.129645E-03, -7.128076E-04, -5.949800E-04, 7.346086E-04, -2.006454E-04, -2.476251E-04, 3.140890E-04, -1.138161E-04, -1.186774E-04, 2.129195E-04, -1.240194E-04, -6.740235E-05, 2.106486E-04, -1.878345E-04, 3.933541E-06, 0.000000E+00, 0.000000E+00],
  [-7.709410E-04, -2.986189E-03, -1.989606E-03, 8.768383E-03, 1.835557E-02, 6.432394E-03, -1.286271E-02, -6.248924E-03, 1.010016E-02, 2.232566E-03, -7.314985E-03, 1.597098E-03, 3.100142E-03, -2.268057E-03, -3.089494E-04, 1.248592E-03, -5.748798E-04, -2.502032E-04, 4.144346E-04, -1.190883E-04, -1.225790E-04, 1.030273E-04, 3.108944E-05, -7.367866E-05, -1.207900E-05, 1.059884E-04, -8.820118E-05, -3.848930E-05, 1.582780E-04, 0.000000E+00, 0.000000E+00],
  [1.866128E-04, -7.088641E-04, -4.856283E-03, -8.679326E-03, -2.747895E-03, 8.780487E-03, 6.655399E-03, -6.205427E-03, -4.773947E-03, 5.602073E-03, 1.597098E-03, -4.305104E-03, 1.116252E-03, 1.688860E-03, -1.473286E-03, 5.131541E-05, 6.707615E-04, -4.781548E-04, 1.795367E-05, 2.288000E-04, -2.043608E-04, 5.667697E-05, 7.809783E-05, -1.336797E-04, 9.409339E-05, 1.403940E-05, -1.206245E-04, 1.437973E-04, -5.201681E-05, 0.000000E+00, 0.000000E+00],
  [2.014674E-04, 1.167894E-03, 1.936924E-03, -9.890833E-04, -6.635268E-03, -5.659400E-03, 3.251476E-03, 5.235913E-03, -2.722106E-03, -3.399189E-03, 3.100142E-03, 1.116252E-03, -2.588986E-03, 7.585220E-04, 9.643011E-04, -9.611818E-04, 1.103528E-04, 4.087453E-04, -3.211322E-04, 1.934173E-07, 1.681475E-04, -1.019603E-04, -4.422356E-05, 1.002462E-04, -2.904805E-05, -7.801961E-05, 1.073676E-04, -2.662403E-05, -9.310577E-05, 0.000000E+00, 0.000000E+00],
  [-1.155631E-04, -1.136471E-04, 1.141145E-03, 3.635707E-03, 3.371736E-03, -1.691482E-03, -4.297416E-03, 5.399937E-04, 3.441318E-03, -1.030748E-03, -2.268057E-03, 1.688860E-03, 7.585220E-04, -1.530939E-03, 4.896644E-04, 5.051343E-04, -5.677345E-04, 1.406322E-04, 1.595880E-04, -1.782500E-04, 7.305444E-05, 7.093045E-06, -3.767827E-05, 5.162192E-05, -5.567829E-05, 2.706844E-05, 3.581043E-05, -8.849719E-05, 7.715925E-05, 0.000000E+00, 0.000000E+00],
  [-4.949886E-05, -3.803991E-04, -1.087025E-03, -8.935207E-04, 1.473860E-03, 3.159141E-03, 4.391045E-04, -2.659464E-03, -4.305324E-04, 2.129645E-03, -3.089494E-04, -1.473286E-03, 9.643011E-04, 4.896644E-04, -9.584916E-04, 3.598570E-04, 2.861473E-04, -3.998523E-04, 1.435137E-04, 1.084697E-04, -1.694950E-04, 7.419944E-05, 4.998704E-05, -9.969443E-05, 5.177597E-05, 3.963049E-05, -9.247644E-05, 6.173822E-05, 2.628819E-05, 0.000000E+00, 0.000000E+00],
  [7.944667E-05, 1.968000E-04, -3.167523E-05, -1.121932E-03, -2.058648E-03, -6.982330E-04, 1.727809E-03, 1.118058E-03, -1.374674E-03, -7.128076E-04, 1.248592E-03, 5.131541E-05, -9.611818E-04, 5.051343E-04, 3.598570E-04, -5.809792E-04, 1.985645E-04, 1.741627E-04, -2.193585E-04, 6.446696E-05, 5.531256E-05, -5.506355E-05, 3.513583E-07, 2.064477E-05, 8.979024E-06, -4.019585E-05, 2.629017E-05, 2.537013E-05, -6.436228E-05, 0.000000E+00, 0.000000E+00],
  [-1.465585E-05, 6.881220E-05, 4.477908E-04, 8.521716E-04, 3.021057E-04, -1.046362E-03, -1.044269E-03, 6.331602E-04, 9.362925E-04, -5.949800E-04, -5.748798E-04, 6.707615E-04, 1.103528E-04, -5.677345E-04, 2.861473E-04, 1.985645E-04, -3.450253E-04, 1.601126E-04, 5.902425E-05, -1.354581E-04, 9.214090E-05, -1.571267E-05, -4.116659E-05, 6.148336E-05, -4.243956E-05, -4.115642E-06, 4.749657E-05, -5.494362E-05, 1.910095E-05, 0.000000E+00, 0.000000E+00],
  [-4.525764E-05, -1.321099E-04, -1.938608E-04, 9.284276E-05, 7.961759E-04, 8.889372E-04, -2.538432E-04, -9.178825E-04, 1.175674E-04, 7.346086E-04, -2.502032E-04, -4.781548E-04, 4.087453E-04, 1.406322E-04, -3.998523E-04, 1.741627E-04, 1.601126E-04, -2.524406E-04, 1.072063E-04, 6.569903E-05, -1.175323E-04, 5.437788E-05, 3.089873E-05, -6.046516E-05, 2.479754E-05, 2.914096E-05, -4.870251E-05, 1.984415E-05, 2.793253E-05, 0.000000E+00, 0.000000E+00],
  [5.138249E-05, 4.804156E-05, -1.061534E-04, -4.238983E-04, -5.720556E-04, -6.602913E-05, 5.940372E-04, 2.774225E-04, -4.800766E-04, -2.006454E-04, 4.144346E-04, 1.795367E-05, -3.211322E-04, 1.595880E-04, 1.435137E-04, -2.193585E-04, 5.902425E-05, 1.072063E-04, -1.268972E-04, 4.286426E-05, 2.798767E-05, -3.547551E-05, 1.137345E-05, -6.089765E-08, 8.200566E-06, -1.373653E-05, 1.538150E-06, 1.935842E-05, -2.824637E-05, 0.000000E+00, 0.000000E+00],
  [-1.390430E-05, 5.461148E-05, 1.801583E-04, 1.705594E-04, -1.074679E-04, -3.810893E-04, -1.686418E-04, 2.937588E-04, 1.976862E-04, -2.476251E-04, -1.190883E-04, 2.288000E-04, 1.934173E-07, -1.782500E-04, 1.084697E-04, 6.446696E-05, -1.354581E-04, 6.569903E-05, 4.286426E-05, -9.222328E-05, 6.618895E-05, -6.600932E-06, -3.938087E-05, 4.809081E-05, -2.331371E-05, -1.235818E-05, 3.331847E-05, -2.729117E-05, 1.928937E-06, 0.000000E+00, 0.000000E+00],
  [-2.769614E-05, -9.712579E-05, -1.061292E-04, 1.079843E-04, 4.249538E-04, 3.493001E-04, -1.964526E-04, -3.936297E-04, 1.005303E-04, 3.140890E-04, -1.225790E-04, -2.043608E-04, 1.681475E-04, 7.305444E-05, -1.694950E-04, 5.531256E-05, 9.214090E-05, -1.175323E-04, 2.798767E-05, 6.618895E-05, -8.277757E-05, 3.012750E-05, 2.851350E-05, -4.429773E-05, 1.755347E-05, 1.748104E-05, -2.931591E-05, 1.273030E-05, 1.393615E-05, 0.000000E+00, 0.000000E+00],
  [3.993167E-05, 5.818136E-05, 3.070654E-06, -1.245200E-04, -2.237875E-04, -1.108056E-04, 1.467329E-04, 1.495418E-04, -1.047963E-04, -1.138161E-04, 1.030273E-04, 5.667697E-05, -1.019603E-04, 7.093045E-06, 7.419944E-05, -5.506355E-05, -1.571267E-05, 5.437788E-05, -3.547551E-05, -6.600932E-06, 3.012750E-05, -2.442348E-05, 6.561977E-06, 4.146314E-06, -3.251925E-06, -1.251593E-06, 1.107405E-06, 4.192683E-06, -8.805874E-06, 0.000000E+00, 0.000000E+00],
  [-1.880052E-05, 3.251217E-05, 9.087240E-05, -3.973814E-06, -1.701096E-04, -1.397462E-04, 7.984768E-05, 1.525081E-04, -3.079782E-05, -1.186774E-04, 3.108944E-05, 7.809783E-05, -4.422356E-05, -3.767827E-05, 4.998704E-05, 3.513583E-07, -4.116659E-05, 3.089873E-05, 1.137345E-05, -3.938087E-05, 2.851350E-05, 6.561977E-06, -3.318634E-05, 3.200837E-05, -9.167685E-06, -1.471038E-05, 2.310979E-05, -1.392870E-05, -2.877298E-06, 0.000000E+00, 0.000000E+00],
  [-1.181826E-05, -1.069130E-04, -1.570552E-04, 5.339636E-05, 3.551432E-04, 2.872595E-04, -1.393483E-04, -2.851915E-04, 6.061442E-05, 2.129195E-04, -7.367866E-05, -1.336797E-04, 1.002462E-04, 5.162192E-05, -9.969443E-05, 2.064477E-05, 6.148336E-05, -6.046516E-05, -6.089765E-08, 4.809081E-05, -4.429773E-05, 4.146314E-06, 3.200837E-05, -3.722309E-05, 1.425663E-05, 1.393452E-05, -2.547879E-05, 1.507567E-05, 5.621393E-06, 0.000000E+00, 0.000000E+00],
  [2.394279E-05, 1.020580E-04, 1.464142E-04, 2.955773E-05, -1.772551E-04, -2.297677E-04, -2.215809E-05, 1.682033E-04, 4.692280E-05, -1.240194E-04, -1.207900E-05, 9.409339E-05, -2.904805E-05, -5.567829E-05, 5.177597E-05, 8.979024E-06, -4.243956E-05, 2.479754E-05, 8.200566E-06, -2.331371E-05, 1.755347E-05, -3.251925E-06, -9.167685E-06, 1.425663E-05, -1.037303E-05, 7.497541E-07, 7.352088E-06, -7.943287E-06, 1.365475E-06, 0.000000E+00, 0.000000E+00],
  [-1.013698E-05, -1.339132E-05, -2.601481E-05, -1.083652E-04, -1.799958E-04, -3.529655E-05, 1.853105E-04, 9.970597E-05, -1.342378E-04, -6.740235E-05, 1.059884E-04, 1.403940E-05, -7.801961E-05, 2.706844E-05, 3.963049E-05, -4.019585E-05, -4.115642E-06, 2.914096E-05, -1.373653E-05, -1.235818E-05, 1.748104E-05, -1.251593E-06, -1.471038E-05, 1.393452E-05, 7.497541E-07, -1.426123E-05, 1.515512E-05, -4.527172E-06, -7.529704E-06, 0.000000E+00, 0.000000E+00],
  [-1.220280E-05, -9.316732E-05, -1.504285E-04, 4.289136E-05, 3.750408E-04, 3.269853E-04, -1.416112E-04, -3.012487E-04, 7.093437E-05, 2.106486E-04, -8.820118E-05, -1.206245E-04, 1.073676E-04, 3.581043E-05, -9.247644E-05, 2.629017E-05, 4.749657E-05, -4.870251E-05, 1.538150E-06, 3.331847E-05, -2.931591E-05, 1.107405E-06, 2.310979E-05, -2.547879E-05, 7.352088E-06, 1.515512E-05, -2.449255E-05, 1.486569E-05, 4.601583E-06, 0.000000E+00, 0.000000E+00],
  [1.890023E-05, 1.305734E-04, 2.526054E-04, 1.385898E-04, -2.147039E-04, -3.868960E-04, -8.527812E-05, 2.598817E-04, 1.014528E-04, -1.878345E-04, -3.848930E-05, 1.437973E-04, -2.662403E-05, -8.849719E-05, 6.173822E-05, 2.537013E-05, -5.494362E-05, 1.984415E-05, 1.935842E-05, -2.729117E-05, 1.273030E-05, 4.192683E-06, -1.392870E-05, 1.507567E-05, -7.943287E-06, -4.527172E-06, 1.486569E-05, -1.531313E-05, 4.895111E-06, 0.000000E+00, 0.000000E+00],
  [-1.741852E-06, -6.340905E-05, -1.764716E-04, -2.529841E-04, -1.701904E-04, 1.132682E-04, 2.735936E-04, 1.282841E-05, -2.173011E-04, 3.933541E-06, 1.582780E-04, -5.201681E-05, -9.310577E-05, 7.715925E-05, 2.628819E-05, -6.436228E-05, 1.910095E-05, 2.793253E-05, -2.824637E-05, 1.928937E-06, 1.393615E-05, -8.805874E-06, -2.877298E-06, 5.621393E-06, 1.365475E-06, -7.529704E-06, 4.601583E-06, 4.895111E-06, -1.137835E-05, 0.000000E+00, 0.000000E+00],
  [0.000000E+00, 0.000000E+00, 0.000000E+00, 0.000000E+00, 0.000000E+00, 0.000000E+00, 0.000000E+00, 0.000000E+00, 0.000000E+00, 0.000000E+00, 0.000000E+00, 0.000000E+00, 0.000000E+00, 0.000000E+00, 0.000000E+00, 0.000000E+00, 0.000000E+00, 0.000000E+00, 0.000000E+00, 0.000000E+00, 0.000000E+00, 0.000000E+00, 0.000000E+00, 0.000000E+00, 0.000000E+00, 0.000000E+00, 0.000000E+00, 0.000000E+00, 0.000000E+00, 0.000000E+00, 0.000000E+00],
  [0.000000E+00, 0.000000E+00, 0.000000E+00, 0.000000E+00, 0.000000E+00, 0.000000E+00, 0.000000E+00, 0.000000E+00, 0.000000E+00, 0.000000E+00, 0.000000E+00, 0.000000E+00, 0.000000E+00, 0.000000E+00, 0.000000E+00, 0.000000E+00, 0.000000E+00, 0.000000E+00, 0.000000E+00, 0.000000E+00, 0.000000E+00, 0.000000E+00, 0.000000E+00, 0.000000E+00, 0.000000E+00, 0.000000E+00, 0.000000E+00, 0.000000E+00, 0.000000E+00, 0.000000E+00, 0.000000E+00]]

/-- `Daejeon16_public_v2.f90` 367-399. -/
def unc1h5 : List (List Num) := [
  [4.155241E-01, 2.136440E-01, 3.579953E-02, -1.975349E-02, -9.770402E-03, 2.648888E-03, 2.236343E-03, -6.450163E-04, -5.217784E-04, 2.344837E-04, 1.121075E-04, -9.442273E-05, -1.581766E-05, 4.104608E-05, -7.769956E-06, -1.863147E-05, 1.718657E-05, -6.362504E-07, -1.264517E-05, 1.322807E-05, -3.427312E-06, -7.133724E-06, 9.894636E-06, -4.013118E-06, -3.855212E-06, 6.122229E-06, -1.103699E-06, -5.842066E-06, 0.000000E+00, 0.000000E+00, 0.000000E+00],
  [2.136440E-01, 3.775295E-01, 1.816567E-01, -3.484727E-03, -3.748032E-02, -4.491448E-03, 8.843471E-03, 1.114919E-03, -2.539336E-03, -8.013144E-06, 7.885151E-04, -1.815687E-04, -2.151758E-04, 1.357015E-04, 2.720531E-05, -6.362841E-05, 1.779074E-05, 2.251980E-05, -2.670413E-05, 5.980184E-06, 1.873987E-05, -2.975084E-05, 1.830987E-05, 9.306032E-06, -3.325816E-05, 3.393498E-05, -8.613191E-06, -2.431692E-05, 0.000000E+00, 0.000000E+00, 0.000000E+00],
  [3.579953E-02, 1.816567E-01, 2.574238E-01, 9.024093E-02, -3.968187E-02, -3.069878E-02, 9.031959E-03, 8.963926E-03, -3.492632E-03, -2.383230E-03, 1.619676E-03, 4.182492E-04, -6.861525E-04, 7.167347E-05, 2.283155E-04, -1.153354E-04, -4.570268E-05, 7.462873E-05, -2.197293E-05, -2.390773E-05, 3.629885E-05, -2.835384E-05, 1.032971E-05, 1.640525E-05, -4.273178E-05, 4.788274E-05, -1.804645E-05, -3.352528E-05, 0.000000E+00, 0.000000E+00, 0.000000E+00],
  [-1.975349E-02, -3.484727E-03, 9.024093E-02, 1.308615E-01, 2.310156E-02, -3.980973E-02, -1.025114E-02, 1.374834E-02, 2.178010E-03, -5.222934E-03, 3.336477E-04, 1.845296E-03, -6.937511E-04, -4.730934E-04, 4.583294E-04, -2.711448E-07, -1.907905E-04, 8.872223E-05, 4.216238E-05, -5.926912E-05, 3.949305E-06, 3.118482E-05, -1.380882E-05, -1.934770E-05, 2.171533E-05, 1.010409E-05, -3.677701E-05, 2.105544E-05, 0.000000E+00, 0.000000E+00, 0.000000E+00],
  [-9.770402E-03, -3.748032E-02, -3.968187E-02, 2.310156E-02, 5.881452E-02, 2.703738E-03, -2.333857E-02, 8.366183E-04, 8.932283E-03, -2.254079E-03, -2.959922E-03, 1.821581E-03, 5.629637E-04, -9.646199E-04, 1.739050E-04, 3.308408E-04, -2.378083E-04, -3.119003E-05, 1.387782E-04, -6.606383E-05, -4.825984E-05, 8.879194E-05, -3.535577E-05, -5.121110E-05, 8.935091E-05, -4.386932E-05, -4.590830E-05, 1.001570E-04, 0.000000E+00, 0.000000E+00, 0.000000E+00],
  [2.648888E-03, -4.491448E-03, -3.069878E-02, -3.980973E-02, 2.703738E-03, 3.163788E-02, 1.446721E-04, -1.289927E-02, 2.654799E-03, 4.465521E-03, -2.588711E-03, -9.231305E-04, 1.476698E-03, -2.459077E-04, -5.195710E-04, 3.636362E-04, 2.989228E-05, -1.735641E-04, 9.662387E-05, 6.909174E-06, -5.036184E-05, 4.860759E-05, -2.492101E-05, -1.425117E-05, 5.177912E-05, -5.444132E-05, 6.568309E-06, 6.215063E-05, 0.000000E+00, 0.000000E+00, 0.000000E+00],
  [2.236343E-03, 8.843471E-03, 9.031959E-03, -1.025114E-02, -2.333857E-02, 1.446721E-04, 1.826827E-02, -1.221815E-03, -7.609047E-03, 2.664323E-03, 2.182152E-03, -2.028295E-03, -3.168135E-05, 9.072999E-04, -4.377290E-04, -1.797881E-04, 2.902955E-04, -7.058171E-05, -9.830880E-05, 8.265617E-05, 1.358737E-05, -5.638414E-05, 1.657111E-05, 4.147731E-05, -4.861262E-05, -1.663598E-06, 5.699303E-05, -6.165612E-05, 0.000000E+00, 0.000000E+00, 0.000000E+00],
  [-6.450163E-04, 1.114919E-03, 8.963926E-03, 1.374834E-02, 8.366183E-04, -1.289927E-02, -1.221815E-03, 1.023682E-02, -1.381776E-03, -4.275901E-03, 2.141068E-03, 8.971668E-04, -1.363882E-03, 3.144292E-04, 4.411915E-04, -3.970313E-04, 3.851207E-05, 1.583393E-04, -1.269355E-04, 1.711978E-05, 5.458607E-05, -6.307529E-05, 2.721484E-05, 2.361139E-05, -5.602329E-05, 4.500741E-05, 5.620000E-06, -5.981601E-05, 0.000000E+00, 0.000000E+00, 0.000000E+00],
  [-5.217784E-04, -2.539336E-03, -3.492632E-03, 2.178010E-03, 8.932283E-03, 2.654799E-03, -7.609047E-03, -1.381776E-03, 6.026826E-03, -1.125848E-03, -2.439696E-03, 1.548429E-03, 3.002049E-04, -8.470466E-04, 3.505530E-04, 1.827968E-04, -2.714859E-04, 7.532253E-05, 8.183219E-05, -7.815549E-05, -9.480618E-07, 3.986693E-05, -1.263103E-05, -2.903616E-05, 3.226541E-05, 5.707452E-06, -4.534367E-05, 4.695462E-05, 0.000000E+00, 0.000000E+00, 0.000000E+00],
  [2.344837E-04, -8.013144E-06, -2.383230E-03, -5.222934E-03, -2.254079E-03, 4.465521E-03, 2.664323E-03, -4.275901E-03, -1.125848E-03, 3.569033E-03, -8.514039E-04, -1.370065E-03, 1.068188E-03, 1.910179E-05, -4.862815E-04, 3.027377E-04, 2.005998E-05, -1.555885E-04, 1.053076E-04, -6.393443E-06, -4.964973E-05, 5.116902E-05, -2.130615E-05, -1.554824E-05, 3.945462E-05, -3.635327E-05, 5.789767E-06, 3.422374E-05, 0.000000E+00, 0.000000E+00, 0.000000E+00],
  [1.121075E-04, 7.885151E-04, 1.619676E-03, 3.336477E-04, -2.959922E-03, -2.588711E-03, 2.182152E-03, 2.141068E-03, -2.439696E-03, -8.514039E-04, 2.164522E-03, -6.080219E-04, -7.762361E-04, 7.209627E-04, -7.704925E-05, -2.833901E-04, 2.248745E-04, -1.604784E-05, -9.829509E-05, 7.085576E-05, 6.675240E-06, -4.175275E-05, 1.798936E-05, 2.193724E-05, -3.332250E-05, 7.049084E-06, 3.106399E-05, -4.581725E-05, 0.000000E+00, 0.000000E+00, 0.000000E+00],
  [-9.442273E-05, -1.815687E-04, 4.182492E-04, 1.845296E-03, 1.821581E-03, -9.231305E-04, -2.028295E-03, 8.971668E-04, 1.548429E-03, -1.370065E-03, -6.080219E-04, 1.322396E-03, -4.192226E-04, -4.296432E-04, 4.621928E-04, -1.046407E-04, -1.343963E-04, 1.437065E-04, -4.932148E-05, -2.400314E-05, 4.167817E-05, -2.839900E-05, 1.126166E-05, 3.248894E-06, -1.756288E-05, 2.675050E-05, -1.954782E-05, -6.520229E-06, 0.000000E+00, 0.000000E+00, 0.000000E+00],
  [-1.581766E-05, -2.151758E-04, -6.861525E-04, -6.937511E-04, 5.629637E-04, 1.476698E-03, -3.168135E-05, -1.363882E-03, 3.002049E-04, 1.068188E-03, -7.762361E-04, -4.192226E-04, 8.263410E-04, -2.984788E-04, -2.400318E-04, 3.121258E-04, -1.053058E-04, -7.460058E-05, 1.104773E-04, -4.779180E-05, -2.297770E-05, 4.666616E-05, -2.311981E-05, -1.484370E-05, 3.355074E-05, -1.985947E-05, -1.352388E-05, 3.839155E-05, 0.000000E+00, 0.000000E+00, 0.000000E+00],
  [4.104608E-05, 1.357015E-04, 7.167347E-05, -4.730934E-04, -9.646199E-04, -2.459077E-04, 9.072999E-04, 3.144292E-04, -8.470466E-04, 1.910179E-05, 7.209627E-04, -4.296432E-04, -2.984788E-04, 5.180343E-04, -1.928218E-04, -1.379572E-04, 1.909473E-04, -7.242897E-05, -3.202994E-05, 5.306674E-05, -2.367480E-05, -2.670190E-06, 4.367795E-06, 5.009629E-06, -3.833976E-06, -1.129544E-05, 2.330219E-05, -1.494840E-05, 0.000000E+00, 0.000000E+00, 0.000000E+00],
  [-7.769956E-06, 2.720531E-05, 2.283155E-04, 4.583294E-04, 1.739050E-04, -5.195710E-04, -4.377290E-04, 4.411915E-04, 3.505530E-04, -4.862815E-04, -7.704925E-05, 4.621928E-04, -2.400318E-04, -1.928218E-04, 3.237934E-04, -1.408437E-04, -6.465358E-05, 1.233834E-04, -7.040126E-05, -6.505199E-08, 3.715813E-05, -3.789613E-05, 1.763732E-05, 7.770435E-06, -2.470414E-05, 2.322350E-05, -3.604980E-06, -2.020756E-05, 0.000000E+00, 0.000000E+00, 0.000000E+00],
  [-1.863147E-05, -6.362841E-05, -1.153354E-04, -2.711448E-07, 3.308408E-04, 3.636362E-04, -1.797881E-04, -3.970313E-04, 1.827968E-04, 3.027377E-04, -2.833901E-04, -1.046407E-04, 3.121258E-04, -1.379572E-04, -1.408437E-04, 2.182286E-04, -9.470553E-05, -4.577712E-05, 8.720913E-05, -4.582599E-05, -9.402563E-06, 3.175844E-05, -1.752155E-05, -8.375371E-06, 1.881164E-05, -6.149738E-06, -1.464597E-05, 2.226415E-05, 0.000000E+00, 0.000000E+00, 0.000000E+00],
  [1.718657E-05, 1.779074E-05, -4.570268E-05, -1.907905E-04, -2.378083E-04, 2.989228E-05, 2.902955E-04, 3.851207E-05, -2.714859E-04, 2.005998E-05, 2.248745E-04, -1.343963E-04, -1.053058E-04, 1.909473E-04, -6.465358E-05, -9.470553E-05, 1.301082E-04, -5.730269E-05, -1.964612E-05, 4.234848E-05, -2.562420E-05, 6.165914E-06, 6.649113E-07, -2.129673E-06, 7.144441E-06, -1.313592E-05, 1.139550E-05, 3.385401E-07, 0.000000E+00, 0.000000E+00, 0.000000E+00],
  [-6.362504E-07, 2.251980E-05, 7.462873E-05, 8.872223E-05, -3.119003E-05, -1.735641E-04, -7.058171E-05, 1.583393E-04, 7.532253E-05, -1.555885E-04, -1.604784E-05, 1.437065E-04, -7.460058E-05, -7.242897E-05, 1.233834E-04, -4.577712E-05, -5.730269E-05, 9.051908E-05, -5.213412E-05, -3.678848E-06, 3.498979E-05, -3.389937E-05, 1.290762E-05, 1.022101E-05, -2.092428E-05, 1.431439E-05, 2.309050E-06, -1.525542E-05, 0.000000E+00, 0.000000E+00, 0.000000E+00],
  [-1.264517E-05, -2.670413E-05, -2.197293E-05, 4.216238E-05, 1.387782E-04, 9.662387E-05, -9.830880E-05, -1.269355E-04, 8.183219E-05, 1.053076E-04, -9.829509E-05, -4.932148E-05, 1.104773E-04, -3.202994E-05, -7.040126E-05, 8.720913E-05, -1.964612E-05, -5.213412E-05, 6.607801E-05, -2.848604E-05, -1.415202E-05, 2.776335E-05, -1.350826E-05, -5.882928E-06, 1.172043E-05, -3.028042E-06, -8.203444E-06, 1.063644E-05, 0.000000E+00, 0.000000E+00, 0.000000E+00],
  [1.322807E-05, 5.980184E-06, -2.390773E-05, -5.926912E-05, -6.606383E-05, 6.909174E-06, 8.265617E-05, 1.711978E-05, -7.815549E-05, -6.393443E-06, 7.085576E-05, -2.400314E-05, -4.779180E-05, 5.306674E-05, -6.505199E-08, -4.582599E-05, 4.234848E-05, -3.678848E-06, -2.848604E-05, 3.173841E-05, -1.591371E-05, 8.551975E-07, 5.242042E-06, -6.164838E-06, 6.608048E-06, -6.385708E-06, 3.320208E-06, 2.251630E-06, 0.000000E+00, 0.000000E+00, 0.000000E+00],
  [-3.427312E-06, 1.873987E-05, 3.629885E-05, 3.949305E-06, -4.825984E-05, -5.036184E-05, 1.358737E-05, 5.458607E-05, -9.480618E-07, -4.964973E-05, 6.675240E-06, 4.167817E-05, -2.297770E-05, -2.367480E-05, 3.715813E-05, -9.402563E-06, -2.562420E-05, 3.498979E-05, -1.415202E-05, -1.591371E-05, 3.122609E-05, -2.389225E-05, 3.824297E-06, 1.289829E-05, -1.655269E-05, 8.406108E-06, 3.135241E-06, -9.770009E-06, 0.000000E+00, 0.000000E+00, 0.000000E+00],
  [-7.133724E-06, -2.975084E-05, -2.835384E-05, 3.118482E-05, 8.879194E-05, 4.860759E-05, -5.638414E-05, -6.307529E-05, 3.986693E-05, 5.116902E-05, -4.175275E-05, -2.839900E-05, 4.666616E-05, -2.670190E-06, -3.789613E-05, 3.175844E-05, 6.165914E-06, -3.389937E-05, 2.776335E-05, 8.551975E-07, -2.389225E-05, 2.467879E-05, -8.581052E-06, -7.628481E-06, 1.217698E-05, -5.563260E-06, -3.686025E-06, 7.631431E-06, 0.000000E+00, 0.000000E+00, 0.000000E+00],
  [9.894636E-06, 1.830987E-05, 1.032971E-05, -1.380882E-05, -3.535577E-05, -2.492101E-05, 1.657111E-05, 2.721484E-05, -1.263103E-05, -2.130615E-05, 1.798936E-05, 1.126166E-05, -2.311981E-05, 4.367795E-06, 1.763732E-05, -1.752155E-05, 6.649113E-07, 1.290762E-05, -1.350826E-05, 5.242042E-06, 3.824297E-06, -8.581052E-06, 8.050984E-06, -4.311139E-06, 5.908294E-07, 1.025895E-06, -7.971007E-07, 3.975284E-07, 0.000000E+00, 0.000000E+00, 0.000000E+00],
  [-4.013118E-06, 9.306032E-06, 1.640525E-05, -1.934770E-05, -5.121110E-05, -1.425117E-05, 4.147731E-05, 2.361139E-05, -2.903616E-05, -1.554824E-05, 2.193724E-05, 3.248894E-06, -1.484370E-05, 5.009629E-06, 7.770435E-06, -8.375371E-06, -2.129673E-06, 1.022101E-05, -5.882928E-06, -6.164838E-06, 1.289829E-05, -7.628481E-06, -4.311139E-06, 1.251915E-05, -1.140231E-05, 3.505823E-06, 4.470710E-06, -7.519563E-06, 0.000000E+00, 0.000000E+00, 0.000000E+00],
  [-3.855212E-06, -3.325816E-05, -4.273178E-05, 2.171533E-05, 8.935091E-05, 5.177912E-05, -4.861262E-05, -5.602329E-05, 3.226541E-05, 3.945462E-05, -3.332250E-05, -1.756288E-05, 3.355074E-05, -3.833976E-06, -2.470414E-05, 1.881164E-05, 7.144441E-06, -2.092428E-05, 1.172043E-05, 6.608048E-06, -1.655269E-05, 1.217698E-05, 5.908294E-07, -1.140231E-05, 1.319459E-05, -6.215888E-06, -3.307381E-06, 8.443598E-06, 0.000000E+00, 0.000000E+00, 0.000000E+00],
  [6.122229E-06, 3.393498E-05, 4.788274E-05, 1.010409E-05, -4.386932E-05, -5.444132E-05, -1.663598E-06, 4.500741E-05, 5.707452E-06, -3.635327E-05, 7.049084E-06, 2.675050E-05, -1.985947E-05, -1.129544E-05, 2.322350E-05, -6.149738E-06, -1.313592E-05, 1.431439E-05, -3.028042E-06, -6.385708E-06, 8.406108E-06, -5.563260E-06, 1.025895E-06, 3.505823E-06, -6.215888E-06, 5.390033E-06, -1.440386E-06, -2.727242E-06, 0.000000E+00, 0.000000E+00, 0.000000E+00],
  [-1.103699E-06, -8.613191E-06, -1.804645E-05, -3.677701E-05, -4.590830E-05, 6.568309E-06, 5.699303E-05, 5.620000E-06, -4.534367E-05, 5.789767E-06, 3.106399E-05, -1.954782E-05, -1.352388E-05, 2.330219E-05, -3.604980E-06, -1.464597E-05, 1.139550E-05, 2.309050E-06, -8.203444E-06, 3.320208E-06, 3.135241E-06, -3.686025E-06, -7.971007E-07, 4.470710E-06, -3.307381E-06, -1.440386E-06, 5.271550E-06, -5.010694E-06, 0.000000E+00, 0.000000E+00, 0.000000E+00],
  [-5.842066E-06, -2.431692E-05, -3.352528E-05, 2.105544E-05, 1.001570E-04, 6.215063E-05, -6.165612E-05, -5.981601E-05, 4.695462E-05, 3.422374E-05, -4.581725E-05, -6.520229E-06, 3.839155E-05, -1.494840E-05, -2.020756E-05, 2.226415E-05, 3.385401E-07, -1.525542E-05, 1.063644E-05, 2.251630E-06, -9.770009E-06, 7.631431E-06, 3.975284E-07, -7.519563E-06, 8.443598E-06, -2.727242E-06, -5.010694E-06, 8.834963E-06, 0.000000E+00, 0.000000E+00, 0.000000E+00],
  [0.000000E+00, 0.000000E+00, 0.000000E+00, 0.000000E+00, 0.000000E+00, 0.000000E+00, 0.000000E+00, 0.000000E+00, 0.000000E+00, 0.000000E+00, 0.000000E+00, 0.000000E+00, 0.000000E+00, 0.000000E+00, 0.000000E+00, 0.000000E+00, 0.000000E+00, 0.000000E+00, 0.000000E+00, 0.000000E+00, 0.000000E+00, 0.000000E+00, 0.000000E+00, 0.000000E+00, 0.000000E+00, 0.000000E+00, 0.000000E+00, 0.000000E+00, 0.000000E+00, 0.000000E+00, 0.000000E+00],
  [0.000000E+00, 0.000000E+00, 0.000000E+00, 0.000000E+00, 0.000000E+00, 0.000000E+00, 0.000000E+00, 0.000000E+00, 0.000000E+00, 0.000000E+00, 0.000000E+00, 0.000000E+00, 0.000000E+00, 0.000000E+00, 0.000000E+00, 0.000000E+00, 0.000000E+00, 0.000000E+00, 0.000000E+00, 0.000000E+00, 0.000000E+00, 0.000000E+00, 0.000000E+00, 0.000000E+00, 0.000000E+00, 0.000000E+00, 0.000000E+00, 0.000000E+00, 0.000000E+00, 0.000000E+00, 0.000000E+00],
  [0.000000E+00, 0.000000E+00, 0.000000E+00, 0.000000E+00, 0.000000E+00, 0.000000E+00, 0.000000E+00, 0.000000E+00, 0.000000E+00, 0.000000E+00, 0.000000E+00, 0.000000E+00, 0.000000E+00, 0.000000E+00, 0.000000E+00, 0.000000E+00, 0.000000E+00, 0.000000E+00, 0.000000E+00, 0.000000E+00, 0.000000E+00, 0.000000E+00, 0.000000E+00, 0.000000E+00, 0.000000E+00, 0.000000E+00, 0.000000E+00, 0.000000E+00, 0.000000E+00, 0.000000E+00, 0.000000E+00]]

/-- `Daejeon16_public_v2.f90` 400-432. -/
def unc3h5 : List (List Num) := [
  [2.512898E-01, 1.476044E-01, 3.122072E-02, -1.363544E-02, -8.986408E-03, 1.485614E-03, 2.185990E-03, -3.365450E-04, -5.618973E-04, 1.522805E-04, 1.432310E-04, -7.723788E-05, -2.922071E-05, 3.799166E-05, -2.457192E-06, -1.704111E-05, 1.194317E-05, 1.648834E-06, -9.896126E-06, 8.370488E-06, -4.174555E-07, -6.752997E-06, 7.402976E-06, -1.595427E-06, -5.070814E-06, 6.461038E-06, -1.342501E-06, -5.549825E-06, 0.000000E+00, 0.000000E+00, 0.000000E+00],
  [1.476044E-01, 2.452132E-01, 1.287319E-01, 7.406431E-04, -2.990082E-02, -5.905126E-03, 7.259514E-03, 1.842435E-03, -2.190273E-03, -3.297733E-04, 7.500580E-04, -5.761673E-05, -2.401513E-04, 9.798072E-05, 5.143220E-05, -5.864988E-05, 5.926598E-06, 2.465768E-05, -2.088017E-05, 1.957686E-06, 1.557632E-05, -2.234829E-05, 1.371971E-05, 6.835024E-06, -2.584537E-05, 2.775439E-05, -8.246016E-06, -1.968645E-05, 0.000000E+00, 0.000000E+00, 0.000000E+00],
  [3.122072E-02, 1.287319E-01, 1.681148E-01, 5.980490E-02, -3.107592E-02, -2.631661E-02, 6.082393E-03, 8.586789E-03, -2.259702E-03, -2.602854E-03, 1.202883E-03, 6.368165E-04, -6.027181E-04, -4.275962E-05, 2.428287E-04, -7.869174E-05, -6.569152E-05, 6.683444E-05, -8.788318E-06, -2.474686E-05, 2.457112E-05, -1.518385E-05, 7.312461E-06, 5.732767E-06, -2.557195E-05, 3.706387E-05, -2.196006E-05, -1.810637E-05, 0.000000E+00, 0.000000E+00, 0.000000E+00],
  [-1.363544E-02, 7.406431E-04, 5.980490E-02, 7.653133E-02, 7.159702E-03, -3.255523E-02, -8.822212E-03, 1.160297E-02, 2.969961E-03, -4.548389E-03, -3.189117E-04, 1.777207E-03, -3.864060E-04, -5.645354E-04, 3.690414E-04, 7.753462E-05, -1.914363E-04, 5.710185E-05, 5.995543E-05, -5.721874E-05, -4.703417E-06, 3.729361E-05, -1.502530E-05, -2.368138E-05, 3.021838E-05, 3.790872E-06, -4.086005E-05, 3.681052E-05, 0.000000E+00, 0.000000E+00, 0.000000E+00],
  [-8.986408E-03, -2.990082E-02, -3.107592E-02, 7.159702E-03, 2.558655E-02, -5.999007E-03, -1.788402E-02, 1.493927E-03, 7.894399E-03, -1.458647E-03, -2.941859E-03, 1.316945E-03, 7.847870E-04, -8.193131E-04, 7.433886E-06, 3.456544E-04, -1.752040E-04, -6.619965E-05, 1.293417E-04, -4.990253E-05, -4.655532E-05, 7.815551E-05, -3.465578E-05, -3.928587E-05, 7.914476E-05, -4.771362E-05, -3.233753E-05, 9.253012E-05, 0.000000E+00, 0.000000E+00, 0.000000E+00],
  [1.485614E-03, -5.905126E-03, -2.631661E-02, -3.255523E-02, -5.999007E-03, 1.142054E-02, -3.872444E-03, -8.493233E-03, 2.954193E-03, 3.825948E-03, -2.102290E-03, -1.107111E-03, 1.248379E-03, -1.979470E-06, -5.248690E-04, 2.460357E-04, 9.604633E-05, -1.552666E-04, 5.306253E-05, 2.519419E-05, -3.755043E-05, 2.774459E-05, -1.969859E-05, 7.636398E-07, 3.302333E-05, -5.303683E-05, 2.700359E-05, 3.738874E-05, 0.000000E+00, 0.000000E+00, 0.000000E+00],
  [2.185990E-03, 7.259514E-03, 6.082393E-03, -8.822212E-03, -1.788402E-02, -3.872444E-03, 6.664715E-03, -2.545370E-03, -4.386512E-03, 2.574661E-03, 1.743053E-03, -1.718195E-03, -2.264734E-04, 8.421107E-04, -2.614759E-04, -2.462853E-04, 2.411809E-04, -1.453025E-05, -1.092329E-04, 6.915585E-05, 2.378966E-05, -6.043924E-05, 2.061426E-05, 4.003435E-05, -5.529524E-05, 8.615721E-06, 5.485422E-05, -7.117965E-05, 0.000000E+00, 0.000000E+00, 0.000000E+00],
  [-3.365450E-04, 1.842435E-03, 8.586789E-03, 1.160297E-02, 1.493927E-03, -8.493233E-03, -2.545370E-03, 3.663521E-03, -1.587902E-03, -2.128043E-03, 1.857823E-03, 6.163263E-04, -1.162913E-03, 1.607322E-04, 4.555735E-04, -2.903027E-04, -4.294647E-05, 1.492334E-04, -7.755649E-05, -7.687586E-06, 4.164570E-05, -4.098683E-05, 2.405434E-05, 8.036152E-06, -4.335898E-05, 5.057640E-05, -1.071258E-05, -5.129485E-05, 0.000000E+00, 0.000000E+00, 0.000000E+00],
  [-5.618973E-04, -2.190273E-03, -2.259702E-03, 2.969961E-03, 7.894399E-03, 2.954193E-03, -4.386512E-03, -1.587902E-03, 2.246579E-03, -9.343978E-04, -1.088776E-03, 1.204601E-03, 1.424384E-04, -7.076971E-04, 2.455244E-04, 2.187278E-04, -2.257659E-04, 1.915231E-05, 9.737445E-05, -6.419772E-05, -1.779994E-05, 4.967484E-05, -1.450632E-05, -3.546597E-05, 4.194799E-05, 2.842395E-06, -5.193495E-05, 5.246085E-05, 0.000000E+00, 0.000000E+00, 0.000000E+00],
  [1.522805E-04, -3.297733E-04, -2.602854E-03, -4.548389E-03, -1.458647E-03, 3.825948E-03, 2.574661E-03, -2.128043E-03, -9.343978E-04, 1.350867E-03, -5.846278E-04, -5.584768E-04, 7.543399E-04, -4.382869E-05, -3.931000E-04, 2.225779E-04, 6.439036E-05, -1.356443E-04, 5.764779E-05, 1.464092E-05, -3.552193E-05, 3.160677E-05, -1.920523E-05, -5.798413E-06, 3.482973E-05, -4.018250E-05, 7.422640E-06, 3.949535E-05, 0.000000E+00, 0.000000E+00, 0.000000E+00],
  [1.432310E-04, 7.500580E-04, 1.202883E-03, -3.189117E-04, -2.941859E-03, -2.102290E-03, 1.743053E-03, 1.857823E-03, -1.088776E-03, -5.846278E-04, 8.280383E-04, -3.671453E-04, -2.953305E-04, 4.689992E-04, -9.179741E-05, -2.202165E-04, 1.736849E-04, 1.423922E-05, -9.795046E-05, 5.188277E-05, 2.358924E-05, -4.728118E-05, 1.308856E-05, 3.064766E-05, -3.600439E-05, -1.800857E-07, 3.832090E-05, -3.913704E-05, 0.000000E+00, 0.000000E+00, 0.000000E+00],
  [-7.723788E-05, -5.761673E-05, 6.368165E-04, 1.777207E-03, 1.316945E-03, -1.107111E-03, -1.718195E-03, 6.163263E-04, 1.204601E-03, -5.584768E-04, -3.671453E-04, 5.073163E-04, -2.290701E-04, -1.560095E-04, 2.780070E-04, -8.601334E-05, -1.025721E-04, 1.047068E-04, -1.735366E-05, -2.973098E-05, 2.478439E-05, -1.297323E-05, 9.697767E-06, -2.824851E-07, -1.812517E-05, 2.622359E-05, -1.008757E-05, -1.790776E-05, 0.000000E+00, 0.000000E+00, 0.000000E+00],
  [-2.922071E-05, -2.401513E-04, -6.027181E-04, -3.864060E-04, 7.847870E-04, 1.248379E-03, -2.264734E-04, -1.162913E-03, 1.424384E-04, 7.543399E-04, -2.953305E-04, -2.290701E-04, 3.153766E-04, -1.538553E-04, -7.984171E-05, 1.773895E-04, -8.036716E-05, -5.319963E-05, 8.549401E-05, -2.967867E-05, -3.038309E-05, 4.228009E-05, -1.155204E-05, -2.320595E-05, 2.927266E-05, -5.875720E-06, -2.089942E-05, 2.648386E-05, 0.000000E+00, 0.000000E+00, 0.000000E+00],
  [3.799166E-05, 9.798072E-05, -4.275962E-05, -5.645354E-04, -8.193131E-04, -1.979470E-06, 8.421107E-04, 1.607322E-04, -7.076971E-04, -4.382869E-05, 4.689992E-04, -1.560095E-04, -1.538553E-04, 2.006458E-04, -9.172932E-05, -5.056757E-05, 1.033002E-04, -4.467364E-05, -2.688695E-05, 3.690576E-05, -7.992445E-06, -7.934224E-06, 8.790347E-07, 5.894191E-06, 8.997009E-07, -1.115621E-05, 1.105956E-05, -5.801867E-07, 0.000000E+00, 0.000000E+00, 0.000000E+00],
  [-2.457192E-06, 5.143220E-05, 2.428287E-04, 3.690414E-04, 7.433886E-06, -5.248690E-04, -2.614759E-04, 4.555735E-04, 2.455244E-04, -3.931000E-04, -9.179741E-05, 2.780070E-04, -7.984171E-05, -9.172932E-05, 1.189660E-04, -6.399173E-05, -1.544918E-05, 6.089585E-05, -4.587332E-05, 8.812149E-07, 2.930289E-05, -2.760213E-05, 5.803830E-06, 1.422107E-05, -1.812734E-05, 7.300566E-06, 6.190343E-06, -1.213282E-05, 0.000000E+00, 0.000000E+00, 0.000000E+00],
  [-1.704111E-05, -5.864988E-05, -7.869174E-05, 7.753462E-05, 3.456544E-04, 2.460357E-04, -2.462853E-04, -2.903027E-04, 2.187278E-04, 2.225779E-04, -2.202165E-04, -8.601334E-05, 1.773895E-04, -5.056757E-05, -6.399173E-05, 8.715240E-05, -4.350956E-05, -1.885884E-05, 4.648815E-05, -2.445744E-05, -1.086249E-05, 2.127774E-05, -6.703594E-06, -8.652705E-06, 9.691336E-06, -7.297866E-07, -7.156394E-06, 8.355949E-06, 0.000000E+00, 0.000000E+00, 0.000000E+00],
  [1.194317E-05, 5.926598E-06, -6.569152E-05, -1.914363E-04, -1.752040E-04, 9.604633E-05, 2.411809E-04, -4.294647E-05, -2.257659E-04, 6.439036E-05, 1.736849E-04, -1.025721E-04, -8.036716E-05, 1.033002E-04, -1.544918E-05, -4.350956E-05, 4.486894E-05, -2.043046E-05, -4.251024E-06, 1.661311E-05, -1.465687E-05, 5.323757E-06, 2.842735E-06, -5.752428E-06, 4.379050E-06, -2.121975E-06, 1.136718E-06, -4.219725E-07, 0.000000E+00, 0.000000E+00, 0.000000E+00],
  [1.648834E-06, 2.465768E-05, 6.683444E-05, 5.710185E-05, -6.619965E-05, -1.552666E-04, -1.453025E-05, 1.492334E-04, 1.915231E-05, -1.356443E-04, 1.423922E-05, 1.047068E-04, -5.319963E-05, -4.467364E-05, 6.089585E-05, -1.885884E-05, -2.043046E-05, 3.502848E-05, -2.463788E-05, -1.473553E-07, 1.870512E-05, -1.772232E-05, 3.618515E-06, 8.178597E-06, -9.947159E-06, 4.640239E-06, 1.802540E-06, -5.937669E-06, 0.000000E+00, 0.000000E+00, 0.000000E+00],
  [-9.896126E-06, -2.088017E-05, -8.788318E-06, 5.995543E-05, 1.293417E-04, 5.306253E-05, -1.092329E-04, -7.755649E-05, 9.737445E-05, 5.764779E-05, -9.795046E-05, -1.735366E-05, 8.549401E-05, -2.688695E-05, -4.587332E-05, 4.648815E-05, -4.251024E-06, -2.463788E-05, 2.430530E-05, -8.639806E-06, -5.808904E-06, 1.080461E-05, -6.615421E-06, -1.190278E-06, 6.026698E-06, -4.426890E-06, -1.668107E-06, 6.433172E-06, 0.000000E+00, 0.000000E+00, 0.000000E+00],
  [8.370488E-06, 1.957686E-06, -2.474686E-05, -5.721874E-05, -4.990253E-05, 2.519419E-05, 6.915585E-05, -7.687586E-06, -6.419772E-05, 1.464092E-05, 5.188277E-05, -2.973098E-05, -2.967867E-05, 3.690576E-05, 8.812149E-07, -2.445744E-05, 1.661311E-05, -1.473553E-07, -8.639806E-06, 9.971896E-06, -6.881801E-06, 1.292132E-06, 3.260860E-06, -3.922296E-06, 1.919631E-06, -5.097754E-07, 6.424094E-07, -5.100385E-07, 0.000000E+00, 0.000000E+00, 0.000000E+00],
  [-4.174555E-07, 1.557632E-05, 2.457112E-05, -4.703417E-06, -4.655532E-05, -3.755043E-05, 2.378966E-05, 4.164570E-05, -1.779994E-05, -3.552193E-05, 2.358924E-05, 2.478439E-05, -3.038309E-05, -7.992445E-06, 2.930289E-05, -1.086249E-05, -1.465687E-05, 1.870512E-05, -5.808904E-06, -6.881801E-06, 1.108194E-05, -8.169339E-06, 2.040346E-06, 3.985520E-06, -6.962980E-06, 5.122211E-06, 3.008568E-07, -5.230833E-06, 0.000000E+00, 0.000000E+00, 0.000000E+00],
  [-6.752997E-06, -2.234829E-05, -1.518385E-05, 3.729361E-05, 7.815551E-05, 2.774459E-05, -6.043924E-05, -4.098683E-05, 4.967484E-05, 3.160677E-05, -4.728118E-05, -1.297323E-05, 4.228009E-05, -7.934224E-06, -2.760213E-05, 2.127774E-05, 5.323757E-06, -1.772232E-05, 1.080461E-05, 1.292132E-06, -8.169339E-06, 8.339288E-06, -3.913490E-06, -2.037159E-06, 5.648718E-06, -4.319930E-06, -6.511835E-07, 4.785305E-06, 0.000000E+00, 0.000000E+00, 0.000000E+00],
  [7.402976E-06, 1.371971E-05, 7.312461E-06, -1.502530E-05, -3.465578E-05, -1.969859E-05, 2.061426E-05, 2.405434E-05, -1.450632E-05, -1.920523E-05, 1.308856E-05, 9.697767E-06, -1.155204E-05, 8.790347E-07, 5.803830E-06, -6.703594E-06, 2.842735E-06, 3.618515E-06, -6.615421E-06, 3.260860E-06, 2.040346E-06, -3.913490E-06, 2.170318E-06, -1.068970E-07, -3.175716E-07, -1.840453E-07, 3.036706E-07, 1.637713E-07, 0.000000E+00, 0.000000E+00, 0.000000E+00],
  [-1.595427E-06, 6.835024E-06, 5.732767E-06, -2.368138E-05, -3.928587E-05, 7.636398E-07, 4.003435E-05, 8.036152E-06, -3.546597E-05, -5.798413E-06, 3.064766E-05, -2.824851E-07, -2.320595E-05, 5.894191E-06, 1.422107E-05, -8.652705E-06, -5.752428E-06, 8.178597E-06, -1.190278E-06, -3.922296E-06, 3.985520E-06, -2.037159E-06, -1.068970E-07, 2.507456E-06, -4.171273E-06, 3.197200E-06, 4.046644E-07, -3.840987E-06, 0.000000E+00, 0.000000E+00, 0.000000E+00],
  [-5.070814E-06, -2.584537E-05, -2.557195E-05, 3.021838E-05, 7.914476E-05, 3.302333E-05, -5.529524E-05, -4.335898E-05, 4.194799E-05, 3.482973E-05, -3.600439E-05, -1.812517E-05, 2.927266E-05, 8.997009E-07, -1.812734E-05, 9.691336E-06, 4.379050E-06, -9.947159E-06, 6.026698E-06, 1.919631E-06, -6.962980E-06, 5.648718E-06, -3.175716E-07, -4.171273E-06, 5.019733E-06, -2.632931E-06, -9.350249E-07, 3.488424E-06, 0.000000E+00, 0.000000E+00, 0.000000E+00],
  [6.461038E-06, 2.775439E-05, 3.706387E-05, 3.790872E-06, -4.771362E-05, -5.303683E-05, 8.615721E-06, 5.057640E-05, 2.842395E-06, -4.018250E-05, -1.800857E-07, 2.622359E-05, -5.875720E-06, -1.115621E-05, 7.300566E-06, -7.297866E-07, -2.121975E-06, 4.640239E-06, -4.426890E-06, -5.097754E-07, 5.122211E-06, -4.319930E-06, -1.840453E-07, 3.197200E-06, -2.632931E-06, 5.249927E-07, 6.939809E-07, -7.408696E-07, 0.000000E+00, 0.000000E+00, 0.000000E+00],
  [-1.342501E-06, -8.246016E-06, -2.196006E-05, -4.086005E-05, -3.233753E-05, 2.700359E-05, 5.485422E-05, -1.071258E-05, -5.193495E-05, 7.422640E-06, 3.832090E-05, -1.008757E-05, -2.089942E-05, 1.105956E-05, 6.190343E-06, -7.156394E-06, 1.136718E-06, 1.802540E-06, -1.668107E-06, 6.424094E-07, 3.008568E-07, -6.511835E-07, 3.036706E-07, 4.046644E-07, -9.350249E-07, 6.939809E-07, 4.830806E-07, -1.763031E-06, 0.000000E+00, 0.000000E+00, 0.000000E+00],
  [-5.549825E-06, -1.968645E-05, -1.810637E-05, 3.681052E-05, 9.253012E-05, 3.738874E-05, -7.117965E-05, -5.129485E-05, 5.246085E-05, 3.949535E-05, -3.913704E-05, -1.790776E-05, 2.648386E-05, -5.801867E-07, -1.213282E-05, 8.355949E-06, -4.219725E-07, -5.937669E-06, 6.433172E-06, -5.100385E-07, -5.230833E-06, 4.785305E-06, 1.637713E-07, -3.840987E-06, 3.488424E-06, -7.408696E-07, -1.763031E-06, 2.809224E-06, 0.000000E+00, 0.000000E+00, 0.000000E+00],
  [0.000000E+00, 0.000000E+00, 0.000000E+00, 0.000000E+00, 0.000000E+00, 0.000000E+00, 0.000000E+00, 0.000000E+00, 0.000000E+00, 0.000000E+00, 0.000000E+00, 0.000000E+00, 0.000000E+00, 0.000000E+00, 0.000000E+00, 0.000000E+00, 0.000000E+00, 0.000000E+00, 0.000000E+00, 0.000000E+00, 0.000000E+00, 0.000000E+00, 0.000000E+00, 0.000000E+00, 0.000000E+00, 0.000000E+00, 0.000000E+00, 0.000000E+00, 0.000000E+00, 0.000000E+00, 0.000000E+00],
  [0.000000E+00, 0.000000E+00, 0.000000E+00, 0.000000E+00, 0.000000E+00, 0.000000E+00, 0.000000E+00, 0.000000E+00, 0.000000E+00, 0.000000E+00, 0.000000E+00, 0.000000E+00, 0.000000E+00, 0.000000E+00, 0.000000E+00, 0.000000E+00, 0.000000E+00, 0.000000E+00, 0.000000E+00, 0.000000E+00, 0.000000E+00, 0.000000E+00, 0.000000E+00, 0.000000E+00, 0.000000E+00, 0.000000E+00, 0.000000E+00, 0.000000E+00, 0.000000E+00, 0.000000E+00, 0.000000E+00],
  [0.000000E+00, 0.000000E+00, 0.000000E+00, 0.000000E+00, 0.000000E+00, 0.000000E+00, 0.000000E+00, 0.000000E+00, 0.000000E+00, 0.000000E+00, 0.000000E+00, 0.000000E+00, 0.000000E+00, 0.000000E+00, 0.000000E+00, 0.000000E+00, 0.000000E+00, 0.000000E+00, 0.000000E+00, 0.000000E+00, 0.000000E+00, 0.000000E+00, 0.000000E+00, 0.000000E+00, 0.000000E+00, 0.000000E+00, 0.000000E+00, 0.000000E+00, 0.000000E+00, 0.000000E+00, 0.000000E+00]]

/-- `Daejeon16_public_v2.f90` 433-465. -/
def unc1i6 : List (List Num) := [
  [-9.542162E-02, -4.952733E-02, -7.082869E-03, 5.383540E-03, 2.031428E-03, -9.329387E-04, -4.575474E-04, 2.550071E-04, 9.259189E-05, -8.669531E-05, -1.034081E-05, 3.062240E-05, -5.441887E-06, -9.890526E-06, 6.605887E-06, 1.389622E-06, -4.632172E-06, 2.640231E-06, 1.126965E-06, -3.303626E-06, 2.435692E-06, 4.803711E-07, -2.879052E-06, 2.703187E-06, -1.395117E-07, -2.540970E-06, 2.955639E-06, -6.757216E-07, 0.000000E+00, 0.000000E+00, 0.000000E+00],
  [-4.952733E-02, -8.618531E-02, -4.008122E-02, 2.612190E-03, 8.543803E-03, 1.179047E-04, -2.133589E-03, 1.086545E-04, 6.065515E-04, -1.416894E-04, -1.628286E-04, 9.207159E-05, 2.679310E-05, -4.187061E-05, 6.137380E-06, 1.364605E-05, -8.691783E-06, -2.403752E-06, 7.401134E-06, -5.449673E-06, -1.814923E-07, 6.065024E-06, -8.745382E-06, 5.746046E-06, 1.971424E-06, -9.411250E-06, 1.077936E-05, -4.306269E-06, 0.000000E+00, 0.000000E+00, 0.000000E+00],
  [-7.082869E-03, -4.008122E-02, -5.701297E-02, -1.917452E-02, 9.111574E-03, 5.764979E-03, -2.588524E-03, -1.497230E-03, 1.054840E-03, 2.868253E-04, -4.374637E-04, 2.344064E-05, 1.528314E-04, -6.297294E-05, -3.539517E-05, 4.021695E-05, -2.965002E-06, -1.667657E-05, 1.089398E-05, 6.753560E-07, -5.233645E-06, 4.456160E-06, -3.774757E-06, 3.445246E-06, -8.263503E-08, -6.642839E-06, 1.144665E-05, -8.146389E-06, 0.000000E+00, 0.000000E+00, 0.000000E+00],
  [5.383540E-03, 2.612190E-03, -1.917452E-02, -2.957897E-02, -6.167927E-03, 7.745365E-03, 1.619528E-03, -2.706188E-03, 2.783269E-06, 1.001497E-03, -2.991523E-04, -2.954658E-04, 2.279016E-04, 2.989403E-05, -1.072645E-04, 3.583504E-05, 2.987329E-05, -3.040832E-05, -4.509663E-07, 1.721619E-05, -8.433804E-06, -8.529353E-06, 1.367945E-05, -3.309989E-06, -1.017068E-05, 1.255417E-05, -1.624234E-06, -1.155215E-05, 0.000000E+00, 0.000000E+00, 0.000000E+00],
  [2.031428E-03, 8.543803E-03, 9.111574E-03, -6.167927E-03, -1.519228E-02, -2.266969E-03, 4.646543E-03, 3.390577E-05, -1.547974E-03, 5.423297E-04, 4.160765E-04, -4.065477E-04, -4.329694E-06, 1.793442E-04, -8.330734E-05, -3.796747E-05, 5.892998E-05, -1.616999E-05, -2.088239E-05, 2.504608E-05, -6.300862E-06, -1.417857E-05, 2.009392E-05, -7.757402E-06, -1.227056E-05, 2.285154E-05, -1.417639E-05, -7.557231E-06, 0.000000E+00, 0.000000E+00, 0.000000E+00],
  [-9.329387E-04, 1.179047E-04, 5.764979E-03, 7.745365E-03, -2.266969E-03, -8.760715E-03, -8.495767E-04, 2.953386E-03, -2.837676E-04, -8.447131E-04, 4.795931E-04, 1.009375E-04, -2.683350E-04, 9.646303E-05, 7.145707E-05, -8.127624E-05, 1.283832E-05, 2.664385E-05, -1.941249E-05, 1.426035E-06, 4.061230E-06, -1.858043E-06, 2.407815E-06, -5.057985E-06, 3.015285E-06, 4.530028E-06, -1.028290E-05, 7.304604E-06, 0.000000E+00, 0.000000E+00, 0.000000E+00],
  [-4.575474E-04, -2.133589E-03, -2.588524E-03, 1.619528E-03, 4.646543E-03, -8.495767E-04, -4.919904E-03, -5.996010E-05, 1.842818E-03, -4.026674E-04, -4.484517E-04, 3.634090E-04, -2.967926E-05, -1.481140E-04, 1.062226E-04, 8.687666E-06, -5.857109E-05, 3.100577E-05, 1.236499E-05, -2.546964E-05, 8.739014E-06, 1.180579E-05, -1.569029E-05, 2.910911E-06, 1.186516E-05, -1.512071E-05, 5.228488E-06, 9.018503E-06, 0.000000E+00, 0.000000E+00, 0.000000E+00],
  [2.550071E-04, 1.086545E-04, -1.497230E-03, -2.706188E-03, 3.390577E-05, 2.953386E-03, -5.996010E-05, -2.763396E-03, 1.510935E-04, 1.099078E-03, -3.643764E-04, -2.182395E-04, 2.422672E-04, -6.676931E-05, -6.278481E-05, 7.498784E-05, -2.077965E-05, -2.051733E-05, 2.296476E-05, -7.882706E-06, -2.942493E-06, 6.157031E-06, -5.983647E-06, 3.892836E-06, 2.256942E-07, -4.658179E-06, 6.820108E-06, -5.429756E-06, 0.000000E+00, 0.000000E+00, 0.000000E+00],
  [9.259189E-05, 6.065515E-04, 1.054840E-03, 2.783269E-06, -1.547974E-03, -2.837676E-04, 1.842818E-03, 1.510935E-04, -1.599611E-03, 1.917621E-04, 6.467970E-04, -2.931328E-04, -9.396153E-05, 1.573729E-04, -6.891065E-05, -2.201173E-05, 5.245733E-05, -2.634359E-05, -1.054628E-05, 2.177983E-05, -8.150420E-06, -8.054207E-06, 1.128629E-05, -3.133386E-06, -6.364362E-06, 1.004221E-05, -6.542913E-06, -2.208711E-06, 0.000000E+00, 0.000000E+00, 0.000000E+00],
  [-8.669531E-05, -1.416894E-04, 2.868253E-04, 1.001497E-03, 5.423297E-04, -8.447131E-04, -4.026674E-04, 1.099078E-03, 1.917621E-04, -9.387651E-04, 1.624968E-04, 3.734220E-04, -2.138634E-04, -3.090447E-05, 9.367770E-05, -5.201036E-05, 3.976060E-08, 2.371291E-05, -1.874904E-05, 3.851724E-06, 5.026118E-06, -5.314477E-06, 2.358564E-06, -9.919199E-07, 1.788289E-06, -1.567604E-06, -2.593773E-06, 8.460987E-06, 0.000000E+00, 0.000000E+00, 0.000000E+00],
  [-1.034081E-05, -1.628286E-04, -4.374637E-04, -2.991523E-04, 4.160765E-04, 4.795931E-04, -4.484517E-04, -3.643764E-04, 6.467970E-04, 1.624968E-04, -5.622827E-04, 1.253433E-04, 2.130147E-04, -1.520458E-04, 2.247145E-06, 5.605483E-05, -4.299419E-05, 9.138489E-06, 1.520305E-05, -1.801744E-05, 6.053650E-06, 5.657047E-06, -8.996160E-06, 5.360014E-06, 1.299544E-06, -7.814060E-06, 9.978724E-06, -3.788676E-06, 0.000000E+00, 0.000000E+00, 0.000000E+00],
  [3.062240E-05, 9.207159E-05, 2.344064E-05, -2.954658E-04, -4.065477E-04, 1.009375E-04, 3.634090E-04, -2.182395E-04, -2.931328E-04, 3.734220E-04, 1.253433E-04, -3.417979E-04, 8.840164E-05, 1.231718E-04, -1.015894E-04, 1.002257E-05, 3.155490E-05, -2.620776E-05, 7.446084E-06, 5.673560E-06, -7.820624E-06, 2.282225E-06, 3.076477E-06, -2.132571E-06, -3.815678E-06, 6.953912E-06, -1.413363E-06, -8.958477E-06, 0.000000E+00, 0.000000E+00, 0.000000E+00],
  [-5.441887E-06, 2.679310E-05, 1.528314E-04, 2.279016E-04, -4.329694E-06, -2.683350E-04, -2.967926E-05, 2.422672E-04, -9.396153E-05, -2.138634E-04, 2.130147E-04, 8.840164E-05, -2.077386E-04, 6.341742E-05, 6.689430E-05, -6.722434E-05, 1.650028E-05, 1.446457E-05, -1.845482E-05, 1.014736E-05, -1.027627E-06, -4.097865E-06, 5.888368E-06, -5.776715E-06, 2.527875E-06, 4.332871E-06, -9.980339E-06, 7.586139E-06, 0.000000E+00, 0.000000E+00, 0.000000E+00],
  [-9.890526E-06, -4.187061E-05, -6.297294E-05, 2.989403E-05, 1.793442E-04, 9.646303E-05, -1.481140E-04, -6.676931E-05, 1.573729E-04, -3.090447E-05, -1.520458E-04, 1.231718E-04, 6.341742E-05, -1.313213E-04, 4.385005E-05, 3.993276E-05, -4.549950E-05, 1.383168E-05, 8.915504E-06, -1.365671E-05, 7.750891E-06, 1.445573E-06, -7.318633E-06, 5.116188E-06, 3.160525E-06, -8.894309E-06, 5.214386E-06, 5.146684E-06, 0.000000E+00, 0.000000E+00, 0.000000E+00],
  [6.605887E-06, 6.137380E-06, -3.539517E-05, -1.072645E-04, -8.330734E-05, 7.145707E-05, 1.062226E-04, -6.278481E-05, -6.891065E-05, 9.367770E-05, 2.247145E-06, -1.015894E-04, 6.689430E-05, 4.385005E-05, -7.975286E-05, 2.860051E-05, 2.147059E-05, -2.742208E-05, 9.805071E-06, 3.605550E-06, -5.269863E-06, 1.548465E-06, -2.613119E-07, 2.858999E-06, -4.345517E-06, 4.788358E-07, 6.043191E-06, -8.173523E-06, 0.000000E+00, 0.000000E+00, 0.000000E+00],
  [1.389622E-06, 1.364605E-05, 4.021695E-05, 3.583504E-05, -3.796747E-05, -8.127624E-05, 8.687666E-06, 7.498784E-05, -2.201173E-05, -5.201036E-05, 5.605483E-05, 1.002257E-05, -6.722434E-05, 3.993276E-05, 2.860051E-05, -5.123341E-05, 2.141818E-05, 1.055172E-05, -1.805851E-05, 1.057309E-05, -1.965169E-06, -4.139039E-06, 7.389929E-06, -5.686554E-06, -8.523994E-07, 6.952242E-06, -6.711875E-06, 8.818421E-08, 0.000000E+00, 0.000000E+00, 0.000000E+00],
  [-4.632172E-06, -8.691783E-06, -2.965002E-06, 2.987329E-05, 5.892998E-05, 1.283832E-05, -5.857109E-05, -2.077965E-05, 5.245733E-05, 3.976060E-08, -4.299419E-05, 3.155490E-05, 1.650028E-05, -4.549950E-05, 2.147059E-05, 2.141818E-05, -3.399819E-05, 1.414912E-05, 8.317842E-06, -1.419652E-05, 6.300972E-06, 3.270084E-06, -5.839814E-06, 1.276937E-06, 4.052524E-06, -4.212207E-06, -6.482544E-07, 5.274290E-06, 0.000000E+00, 0.000000E+00, 0.000000E+00],
  [2.640231E-06, -2.403752E-06, -1.667657E-05, -3.040832E-05, -1.616999E-05, 2.664385E-05, 3.100577E-05, -2.051733E-05, -2.634359E-05, 2.371291E-05, 9.138489E-06, -2.620776E-05, 1.446457E-05, 1.383168E-05, -2.742208E-05, 1.055172E-05, 1.414912E-05, -1.948115E-05, 7.420610E-06, 3.416719E-06, -4.727477E-06, 2.131386E-06, -1.711769E-06, 2.551350E-06, -1.162627E-06, -2.344317E-06, 4.484562E-06, -2.922616E-06, 0.000000E+00, 0.000000E+00, 0.000000E+00],
  [1.126965E-06, 7.401134E-06, 1.089398E-05, -4.509663E-07, -2.088239E-05, -1.941249E-05, 1.236499E-05, 2.296476E-05, -1.054628E-05, -1.874904E-05, 1.520305E-05, 7.446084E-06, -1.845482E-05, 8.915504E-06, 9.805071E-06, -1.805851E-05, 8.317842E-06, 7.420610E-06, -1.422821E-05, 9.395266E-06, 2.406731E-08, -6.483813E-06, 6.750213E-06, -2.229237E-06, -2.836234E-06, 4.591135E-06, -2.360177E-06, -1.362580E-06, 0.000000E+00, 0.000000E+00, 0.000000E+00],
  [-3.303626E-06, -5.449673E-06, 6.753560E-07, 1.721619E-05, 2.504608E-05, 1.426035E-06, -2.546964E-05, -7.882706E-06, 2.177983E-05, 3.851724E-06, -1.801744E-05, 5.673560E-06, 1.014736E-05, -1.365671E-05, 3.605550E-06, 1.057309E-05, -1.419652E-05, 3.416719E-06, 9.395266E-06, -1.137392E-05, 3.363473E-06, 4.352960E-06, -5.020534E-06, 7.125726E-07, 2.679421E-06, -2.207734E-06, -5.493814E-07, 2.487154E-06, 0.000000E+00, 0.000000E+00, 0.000000E+00],
  [2.435692E-06, -1.814923E-07, -5.233645E-06, -8.433804E-06, -6.300862E-06, 4.061230E-06, 8.739014E-06, -2.942493E-06, -8.150420E-06, 5.026118E-06, 6.053650E-06, -7.820624E-06, -1.027627E-06, 7.750891E-06, -5.269863E-06, -1.965169E-06, 6.300972E-06, -4.727477E-06, 2.406731E-08, 3.363473E-06, -3.656154E-06, 2.137848E-06, -6.310458E-07, -2.557326E-07, 7.957658E-07, -1.170519E-06, 1.199154E-06, -6.985436E-07, 0.000000E+00, 0.000000E+00, 0.000000E+00],
  [4.803711E-07, 6.065024E-06, 4.456160E-06, -8.529353E-06, -1.417857E-05, -1.858043E-06, 1.180579E-05, 6.157031E-06, -8.054207E-06, -5.314477E-06, 5.657047E-06, 2.282225E-06, -4.097865E-06, 1.445573E-06, 1.548465E-06, -4.139039E-06, 3.270084E-06, 2.131386E-06, -6.483813E-06, 4.352960E-06, 2.137848E-06, -6.290669E-06, 4.738527E-06, -5.419504E-08, -3.212946E-06, 3.081028E-06, -8.461151E-07, -1.182727E-06, 0.000000E+00, 0.000000E+00, 0.000000E+00],
  [-2.879052E-06, -8.745382E-06, -3.774757E-06, 1.367945E-05, 2.009392E-05, 2.407815E-06, -1.569029E-05, -5.983647E-06, 1.128629E-05, 2.358564E-06, -8.996160E-06, 3.076477E-06, 5.888368E-06, -7.318633E-06, -2.613119E-07, 7.389929E-06, -5.839814E-06, -1.711769E-06, 6.750213E-06, -5.020534E-06, -6.310458E-07, 4.738527E-06, -4.434709E-06, 1.013854E-06, 2.150987E-06, -2.731124E-06, 9.629177E-07, 1.195258E-06, 0.000000E+00, 0.000000E+00, 0.000000E+00],
  [2.703187E-06, 5.746046E-06, 3.445246E-06, -3.309989E-06, -7.757402E-06, -5.057985E-06, 2.910911E-06, 3.892836E-06, -3.133386E-06, -9.919199E-07, 5.360014E-06, -2.132571E-06, -5.776715E-06, 5.116188E-06, 2.858999E-06, -5.686554E-06, 1.276937E-06, 2.551350E-06, -2.229237E-06, 7.125726E-07, -2.557326E-07, -5.419504E-08, 1.013854E-06, -1.614980E-06, 9.011792E-07, 4.343840E-07, -9.768522E-07, 3.352108E-07, 0.000000E+00, 0.000000E+00, 0.000000E+00],
  [-1.395117E-07, 1.971424E-06, -8.263503E-08, -1.017068E-05, -1.227056E-05, 3.015285E-06, 1.186516E-05, 2.256942E-07, -6.364362E-06, 1.788289E-06, 1.299544E-06, -3.815678E-06, 2.527875E-06, 3.160525E-06, -4.345517E-06, -8.523994E-07, 4.052524E-06, -1.162627E-06, -2.836234E-06, 2.679421E-06, 7.957658E-07, -3.212946E-06, 2.150987E-06, 9.011792E-07, -2.849465E-06, 2.213026E-06, -7.213594E-08, -1.515046E-06, 0.000000E+00, 0.000000E+00, 0.000000E+00],
  [-2.540970E-06, -9.411250E-06, -6.642839E-06, 1.255417E-05, 2.285154E-05, 4.530028E-06, -1.512071E-05, -4.658179E-06, 1.004221E-05, -1.567604E-06, -7.814060E-06, 6.953912E-06, 4.332871E-06, -8.894309E-06, 4.788358E-07, 6.952242E-06, -4.212207E-06, -2.344317E-06, 4.591135E-06, -2.207734E-06, -1.170519E-06, 3.081028E-06, -2.731124E-06, 4.343840E-07, 2.213026E-06, -3.125030E-06, 1.592562E-06, 9.709853E-07, 0.000000E+00, 0.000000E+00, 0.000000E+00],
  [2.955639E-06, 1.077936E-05, 1.144665E-05, -1.624234E-06, -1.417639E-05, -1.028290E-05, 5.228488E-06, 6.820108E-06, -6.542913E-06, -2.593773E-06, 9.978724E-06, -1.413363E-06, -9.980339E-06, 5.214386E-06, 6.043191E-06, -6.711875E-06, -6.482544E-07, 4.484562E-06, -2.360177E-06, -5.493814E-07, 1.199154E-06, -8.461151E-07, 9.629177E-07, -9.768522E-07, -7.213594E-08, 1.592562E-06, -2.009799E-06, 7.259179E-07, 0.000000E+00, 0.000000E+00, 0.000000E+00],
  [-6.757216E-07, -4.306269E-06, -8.146389E-06, -1.155215E-05, -7.557231E-06, 7.304604E-06, 9.018503E-06, -5.429756E-06, -2.208711E-06, 8.460987E-06, -3.788676E-06, -8.958477E-06, 7.586139E-06, 5.146684E-06, -8.173523E-06, 8.818421E-08, 5.274290E-06, -2.922616E-06, -1.362580E-06, 2.487154E-06, -6.985436E-07, -1.182727E-06, 1.195258E-06, 3.352108E-07, -1.515046E-06, 9.709853E-07, 7.259179E-07, -1.798802E-06, 0.000000E+00, 0.000000E+00, 0.000000E+00],
  [0.000000E+00, 0.000000E+00, 0.000000E+00, 0.000000E+00, 0.000000E+00, 0.000000E+00, 0.000000E+00, 0.000000E+00, 0.000000E+00, 0.000000E+00, 0.000000E+00, 0.000000E+00, 0.000000E+00, 0.000000E+00, 0.000000E+00, 0.000000E+00, 0.000000E+00, 0.000000E+00, 0.000000E+00, 0.000000E+00, 0.000000E+00, 0.000000E+00, 0.000000E+00, 0.000000E+00, 0.000000E+00, 0.000000E+00, 0.000000E+00, 0.000000E+00, 0.000000E+00, 0.000000E+00, 0.000000E+00],
  [0.000000E+00, 0.000000E+00, 0.000000E+00, 0.000000E+00, 0.000000E+00, 0.000000E+00, 0.000000E+00, 0.000000E+00, 0.000000E+00, 0.000000E+00, 0.000000E+00, 0.000000E+00, 0.000000E+00, 0.000000E+00, 0.000000E+00, 0.000000E+00, 0.000000E+00, 0.000000E+00, 0.000000E+00, 0.000000E+00, 0.000000E+00, 0.000000E+00, 0.000000E+00, 0.000000E+00, 0.000000E+00, 0.000000E+00, 0.000000E+00, 0.000000E+00, 0.000000E+00, 0.000000E+00, 0.000000E+00],
  [0.000000E+00, 0.000000E+00, 0.000000E+00, 0.000000E+00, 0.000000E+00, 0.000000E+00, 0.000000E+00, 0.000000E+00, 0.000000E+00, 0.000000E+00, 0.000000E+00, 0.000000E+00, 0.000000E+00, 0.000000E+00, 0.000000E+00, 0.000000E+00, 0.000000E+00, 0.000000E+00, 0.000000E+00, 0.000000E+00, 0.000000E+00, 0.000000E+00, 0.000000E+00, 0.000000E+00, 0.000000E+00, 0.000000E+00, 0.000000E+00, 0.000000E+00, 0.000000E+00, 0.000000E+00, 0.000000E+00]]

/-- `Daejeon16_public_v2.f90` 466-498. -/
def unc3i6 : List (List Num) := [
  [-5.337330E-01, -2.888618E-01, -4.288523E-02, 3.501826E-02, 1.456445E-02, -6.020441E-03, -3.650269E-03, 1.643945E-03, 8.502582E-04, -5.954389E-04, -1.465979E-04, 2.299109E-04, -1.711399E-05, -8.050337E-05, 4.176400E-05, 1.528574E-05, -3.154103E-05, 1.455474E-05, 9.512241E-06, -2.130039E-05, 1.422780E-05, 4.687368E-06, -1.961725E-05, 1.776040E-05, -2.495465E-07, -1.812945E-05, 2.123183E-05, -5.511245E-06, 0.000000E+00, 0.000000E+00, 0.000000E+00],
  [-2.888618E-01, -4.893104E-01, -2.280687E-01, 2.266031E-02, 5.773219E-02, 1.699356E-03, -1.538228E-02, -7.651958E-05, 4.602775E-03, -6.716941E-04, -1.357284E-03, 5.754252E-04, 2.946933E-04, -3.055045E-04, 7.082908E-06, 1.155598E-04, -5.682692E-05, -2.441811E-05, 5.116866E-05, -3.346568E-05, -1.490365E-06, 3.617792E-05, -5.399299E-05, 3.873910E-05, 8.472717E-06, -5.913043E-05, 7.360235E-05, -3.405465E-05, 0.000000E+00, 0.000000E+00, 0.000000E+00],
  [-4.288523E-02, -2.280687E-01, -3.120590E-01, -9.330344E-02, 6.683338E-02, 3.843263E-02, -1.866610E-02, -1.177385E-02, 7.311070E-03, 2.824329E-03, -3.154955E-03, -1.787950E-04, 1.214307E-03, -3.529597E-04, -3.398935E-04, 2.860041E-04, 1.315377E-05, -1.328358E-04, 6.772578E-05, 1.705848E-05, -3.662219E-05, 1.937060E-05, -1.504391E-05, 2.521550E-05, -1.513853E-05, -3.060732E-05, 7.826513E-05, -7.315962E-05, 0.000000E+00, 0.000000E+00, 0.000000E+00],
  [3.501826E-02, 2.266031E-02, -9.330344E-02, -1.429051E-01, -1.367035E-02, 5.420987E-02, 7.699986E-03, -2.044413E-02, -4.689438E-04, 7.771175E-03, -1.669266E-03, -2.527609E-03, 1.507177E-03, 4.462517E-04, -8.069532E-04, 1.751617E-04, 2.708268E-04, -2.160168E-04, -2.593554E-05, 1.370629E-04, -6.229681E-05, -6.527994E-05, 1.044195E-04, -2.715085E-05, -7.896547E-05, 1.042260E-04, -2.024087E-05, -9.464943E-05, 0.000000E+00, 0.000000E+00, 0.000000E+00],
  [1.456445E-02, 5.773219E-02, 6.683338E-02, -1.367035E-02, -6.261215E-02, 1.432836E-03, 2.883179E-02, -3.749507E-03, -1.146591E-02, 4.220208E-03, 3.554572E-03, -2.923872E-03, -3.908764E-04, 1.390392E-03, -4.636592E-04, -3.760077E-04, 4.134205E-04, -7.038746E-05, -1.654161E-04, 1.694706E-04, -4.063723E-05, -9.222309E-05, 1.388044E-04, -6.853641E-05, -6.862593E-05, 1.626548E-04, -1.249716E-04, -2.976706E-05, 0.000000E+00, 0.000000E+00, 0.000000E+00],
  [-6.020441E-03, 1.699356E-03, 3.843263E-02, 5.420987E-02, 1.432836E-03, -3.529673E-02, 2.009745E-03, 1.601371E-02, -4.628260E-03, -5.654939E-03, 3.895022E-03, 9.844854E-04, -2.092802E-03, 5.074691E-04, 6.637652E-04, -5.495730E-04, 2.560311E-06, 2.246168E-04, -1.163490E-04, -2.193797E-05, 3.748689E-05, 3.560846E-06, -1.872387E-06, -4.016523E-05, 4.943880E-05, 1.004269E-05, -8.740619E-05, 9.704184E-05, 0.000000E+00, 0.000000E+00, 0.000000E+00],
  [-3.650269E-03, -1.538228E-02, -1.866610E-02, 7.699986E-03, 2.883179E-02, 2.009745E-03, -2.001407E-02, 2.774814E-03, 9.055858E-03, -4.172486E-03, -2.576315E-03, 2.920605E-03, -1.501831E-04, -1.235365E-03, 7.012138E-04, 1.852109E-04, -4.379154E-04, 1.757737E-04, 1.171627E-04, -1.821680E-04, 5.936671E-05, 8.520550E-05, -1.229153E-04, 3.787321E-05, 8.446804E-05, -1.332105E-04, 6.164051E-05, 7.507035E-05, 0.000000E+00, 0.000000E+00, 0.000000E+00],
  [1.643945E-03, -7.651958E-05, -1.177385E-02, -2.044413E-02, -3.749507E-03, 1.601371E-02, 2.774814E-03, -1.137747E-02, 2.134483E-03, 4.970022E-03, -3.060741E-03, -9.667438E-04, 1.876138E-03, -5.105211E-04, -5.746545E-04, 5.448363E-04, -6.131175E-05, -1.924105E-04, 1.380700E-04, -1.519010E-05, -2.747420E-05, 1.819489E-05, -2.411568E-05, 4.374676E-05, -3.034939E-05, -2.893641E-05, 8.528689E-05, -7.651706E-05, 0.000000E+00, 0.000000E+00, 0.000000E+00],
  [8.502582E-04, 4.602775E-03, 7.311070E-03, -4.689438E-04, -1.146591E-02, -4.628260E-03, 9.055858E-03, 2.134483E-03, -6.769611E-03, 1.592617E-03, 2.784617E-03, -2.126412E-03, -2.430351E-04, 1.142886E-03, -5.415989E-04, -2.195931E-04, 4.007006E-04, -1.520644E-04, -1.066154E-04, 1.606815E-04, -5.318999E-05, -6.914624E-05, 9.954212E-05, -3.039073E-05, -6.575394E-05, 1.024419E-04, -4.693372E-05, -5.670326E-05, 0.000000E+00, 0.000000E+00, 0.000000E+00],
  [-5.954389E-04, -6.716941E-04, 2.824329E-03, 7.771175E-03, 4.220208E-03, -5.654939E-03, -4.172486E-03, 4.970022E-03, 1.592617E-03, -4.034855E-03, 1.114661E-03, 1.547930E-03, -1.405563E-03, 4.545176E-05, 6.412575E-04, -4.081274E-04, -3.945896E-05, 2.015622E-04, -1.065794E-04, -1.074087E-05, 3.506892E-05, -1.011098E-05, 6.949267E-06, -2.958110E-05, 3.337099E-05, 5.540475E-06, -5.757362E-05, 7.003236E-05, 0.000000E+00, 0.000000E+00, 0.000000E+00],
  [-1.465979E-04, -1.357284E-03, -3.154955E-03, -1.669266E-03, 3.554572E-03, 3.895022E-03, -2.576315E-03, -3.060741E-03, 2.784617E-03, 1.114661E-03, -2.454244E-03, 7.751246E-04, 8.551266E-04, -9.240391E-04, 1.637150E-04, 3.484270E-04, -3.230460E-04, 5.776978E-05, 1.252835E-04, -1.315833E-04, 3.511781E-05, 5.635454E-05, -7.952297E-05, 3.300301E-05, 3.809152E-05, -7.623044E-05, 5.092195E-05, 1.949846E-05, 0.000000E+00, 0.000000E+00, 0.000000E+00],
  [2.299109E-04, 5.754252E-04, -1.787950E-04, -2.527609E-03, -2.923872E-03, 9.844854E-04, 2.920605E-03, -9.667438E-04, -2.126412E-03, 1.547930E-03, 7.751246E-04, -1.515092E-03, 5.193961E-04, 4.896384E-04, -5.909366E-04, 1.458452E-04, 1.911069E-04, -1.951111E-04, 3.783123E-05, 6.164116E-05, -4.637762E-05, -8.155293E-06, 2.289725E-05, 8.312891E-06, -3.724192E-05, 2.434152E-05, 2.193440E-05, -5.770164E-05, 0.000000E+00, 0.000000E+00, 0.000000E+00],
  [-1.711399E-05, 2.946933E-04, 1.214307E-03, 1.507177E-03, -3.908764E-04, -2.092802E-03, -1.501831E-04, 1.876138E-03, -2.430351E-04, -1.405563E-03, 8.551266E-04, 5.193961E-04, -9.279449E-04, 3.536372E-04, 2.525250E-04, -3.668534E-04, 1.470138E-04, 6.734664E-05, -1.274660E-04, 7.686044E-05, -4.364018E-06, -4.158521E-05, 5.129292E-05, -2.977280E-05, -9.591698E-06, 4.309573E-05, -4.644043E-05, 1.384585E-05, 0.000000E+00, 0.000000E+00, 0.000000E+00],
  [-8.050337E-05, -3.055045E-04, -3.529597E-04, 4.462517E-04, 1.390392E-03, 5.074691E-04, -1.235365E-03, -5.105211E-04, 1.142886E-03, 4.545176E-05, -9.240391E-04, 4.896384E-04, 3.536372E-04, -6.007351E-04, 2.466110E-04, 1.536433E-04, -2.523740E-04, 1.096972E-04, 5.169584E-05, -9.766590E-05, 4.270996E-05, 2.660755E-05, -4.567607E-05, 1.269572E-05, 2.968038E-05, -3.966085E-05, 9.884774E-06, 3.190614E-05, 0.000000E+00, 0.000000E+00, 0.000000E+00],
  [4.176400E-05, 7.082908E-06, -3.398935E-04, -8.069532E-04, -4.636592E-04, 6.637652E-04, 7.012138E-04, -5.746545E-04, -5.415989E-04, 6.412575E-04, 1.637150E-04, -5.909366E-04, 2.525250E-04, 2.466110E-04, -3.657655E-04, 1.482342E-04, 8.001710E-05, -1.362031E-04, 6.748127E-05, 6.112833E-06, -2.876106E-05, 1.928215E-05, -1.168475E-05, 1.312761E-05, -9.490876E-06, -7.254305E-06, 2.595003E-05, -2.794779E-05, 0.000000E+00, 0.000000E+00, 0.000000E+00],
  [1.528574E-05, 1.155598E-04, 2.860041E-04, 1.751617E-04, -3.760077E-04, -5.495730E-04, 1.852109E-04, 5.448363E-04, -2.195931E-04, -4.081274E-04, 3.484270E-04, 1.458452E-04, -3.668534E-04, 1.536433E-04, 1.482342E-04, -2.383983E-04, 1.219248E-04, 3.134612E-05, -9.938677E-05, 7.434408E-05, -1.121223E-05, -3.636794E-05, 4.469257E-05, -1.985690E-05, -1.437533E-05, 3.286172E-05, -2.418249E-05, -3.172617E-06, 0.000000E+00, 0.000000E+00, 0.000000E+00],
  [-3.154103E-05, -5.682692E-05, 1.315377E-05, 2.708268E-04, 4.134205E-04, 2.560311E-06, -4.379154E-04, -6.131175E-05, 4.007006E-04, -3.945896E-05, -3.230460E-04, 1.911069E-04, 1.470138E-04, -2.523740E-04, 8.001710E-05, 1.219248E-04, -1.651801E-04, 6.992194E-05, 3.651408E-05, -6.862916E-05, 3.361067E-05, 1.207275E-05, -2.601262E-05, 7.897154E-06, 1.477683E-05, -1.795570E-05, 4.695746E-07, 1.979493E-05, 0.000000E+00, 0.000000E+00, 0.000000E+00],
  [1.455474E-05, -2.441811E-05, -1.328358E-04, -2.160168E-04, -7.038746E-05, 2.246168E-04, 1.757737E-04, -1.924105E-04, -1.520644E-04, 2.015622E-04, 5.776978E-05, -1.951111E-04, 6.734664E-05, 1.096972E-04, -1.362031E-04, 3.134612E-05, 6.992194E-05, -8.770610E-05, 4.332880E-05, 4.372267E-06, -2.418601E-05, 2.181710E-05, -1.367974E-05, 6.602525E-06, 1.291805E-06, -1.039939E-05, 1.563745E-05, -1.160373E-05, 0.000000E+00, 0.000000E+00, 0.000000E+00],
  [9.512241E-06, 5.116866E-05, 6.772578E-05, -2.593554E-05, -1.654161E-04, -1.163490E-04, 1.171627E-04, 1.380700E-04, -1.066154E-04, -1.065794E-04, 1.252835E-04, 3.783123E-05, -1.274660E-04, 5.169584E-05, 6.748127E-05, -9.938677E-05, 3.651408E-05, 4.332880E-05, -7.409712E-05, 4.835772E-05, -3.335497E-07, -3.248977E-05, 3.403150E-05, -1.233248E-05, -1.223276E-05, 2.240750E-05, -1.407634E-05, -3.711211E-06, 0.000000E+00, 0.000000E+00, 0.000000E+00],
  [-2.130039E-05, -3.346568E-05, 1.705848E-05, 1.370629E-04, 1.694706E-04, -2.193797E-05, -1.821680E-04, -1.519010E-05, 1.606815E-04, -1.074087E-05, -1.315833E-04, 6.164116E-05, 7.686044E-05, -9.766590E-05, 6.112833E-06, 7.434408E-05, -6.862916E-05, 4.372267E-06, 4.835772E-05, -5.121890E-05, 1.784622E-05, 1.478092E-05, -2.274836E-05, 8.950001E-06, 7.873358E-06, -1.232684E-05, 3.227880E-06, 9.132028E-06, 0.000000E+00, 0.000000E+00, 0.000000E+00],
  [1.422780E-05, -1.490365E-06, -3.662219E-05, -6.229681E-05, -4.063723E-05, 3.748689E-05, 5.936671E-05, -2.747420E-05, -5.318999E-05, 3.506892E-05, 3.511781E-05, -4.637762E-05, -4.364018E-06, 4.270996E-05, -2.876106E-05, -1.121223E-05, 3.361067E-05, -2.418601E-05, -3.335497E-07, 1.784622E-05, -2.010772E-05, 1.259008E-05, -3.939433E-06, -1.664219E-06, 4.597993E-06, -6.124254E-06, 6.115336E-06, -3.749592E-06, 0.000000E+00, 0.000000E+00, 0.000000E+00],
  [4.687368E-06, 3.617792E-05, 1.937060E-05, -6.527994E-05, -9.222309E-05, 3.560846E-06, 8.520550E-05, 1.819489E-05, -6.914624E-05, -1.011098E-05, 5.635454E-05, -8.155293E-06, -4.158521E-05, 2.660755E-05, 1.928215E-05, -3.636794E-05, 1.207275E-05, 2.181710E-05, -3.248977E-05, 1.478092E-05, 1.259008E-05, -2.785443E-05, 2.270382E-05, -4.599526E-06, -1.205419E-05, 1.691960E-05, -9.442831E-06, -2.910369E-06, 0.000000E+00, 0.000000E+00, 0.000000E+00],
  [-1.961725E-05, -5.399299E-05, -1.504391E-05, 1.044195E-04, 1.388044E-04, -1.872387E-06, -1.229153E-04, -2.411568E-05, 9.954212E-05, 6.949267E-06, -7.952297E-05, 2.289725E-05, 5.129292E-05, -4.567607E-05, -1.168475E-05, 4.469257E-05, -2.601262E-05, -1.367974E-05, 3.403150E-05, -2.274836E-05, -3.939433E-06, 2.270382E-05, -2.212122E-05, 7.242122E-06, 8.269646E-06, -1.355904E-05, 7.281792E-06, 3.569806E-06, 0.000000E+00, 0.000000E+00, 0.000000E+00],
  [1.776040E-05, 3.873910E-05, 2.521550E-05, -2.715085E-05, -6.853641E-05, -4.016523E-05, 3.787321E-05, 4.374676E-05, -3.039073E-05, -2.958110E-05, 3.300301E-05, 8.312891E-06, -2.977280E-05, 1.269572E-05, 1.312761E-05, -1.985690E-05, 7.897154E-06, 6.602525E-06, -1.233248E-05, 8.950001E-06, -1.664219E-06, -4.599526E-06, 7.242122E-06, -5.998738E-06, 2.506756E-06, 7.076924E-07, -1.813420E-06, 8.004024E-07, 0.000000E+00, 0.000000E+00, 0.000000E+00],
  [-2.495465E-07, 8.472717E-06, -1.513853E-05, -7.896547E-05, -6.862593E-05, 4.943880E-05, 8.446804E-05, -3.034939E-05, -6.575394E-05, 3.337099E-05, 3.809152E-05, -3.724192E-05, -9.591698E-06, 2.968038E-05, -9.490876E-06, -1.437533E-05, 1.477683E-05, 1.291805E-06, -1.223276E-05, 7.873358E-06, 4.597993E-06, -1.205419E-05, 8.269646E-06, 2.506756E-06, -1.109834E-05, 1.138023E-05, -4.247734E-06, -4.318972E-06, 0.000000E+00, 0.000000E+00, 0.000000E+00],
  [-1.812945E-05, -5.913043E-05, -3.060732E-05, 1.042260E-04, 1.626548E-04, 1.004269E-05, -1.332105E-04, -2.893641E-05, 1.024419E-04, 5.540475E-06, -7.623044E-05, 2.434152E-05, 4.309573E-05, -3.966085E-05, -7.254305E-06, 3.286172E-05, -1.795570E-05, -1.039939E-05, 2.240750E-05, -1.232684E-05, -6.124254E-06, 1.691960E-05, -1.355904E-05, 7.076924E-07, 1.138023E-05, -1.456660E-05, 7.852016E-06, 2.978431E-06, 0.000000E+00, 0.000000E+00, 0.000000E+00],
  [2.123183E-05, 7.360235E-05, 7.826513E-05, -2.024087E-05, -1.249716E-04, -8.740619E-05, 6.164051E-05, 8.528689E-05, -4.693372E-05, -5.757362E-05, 5.092195E-05, 2.193440E-05, -4.644043E-05, 9.884774E-06, 2.595003E-05, -2.418249E-05, 4.695746E-07, 1.563745E-05, -1.407634E-05, 3.227880E-06, 6.115336E-06, -9.442831E-06, 7.281792E-06, -1.813420E-06, -4.247734E-06, 7.852016E-06, -6.897833E-06, 1.924822E-06, 0.000000E+00, 0.000000E+00, 0.000000E+00],
  [-5.511245E-06, -3.405465E-05, -7.315962E-05, -9.464943E-05, -2.976706E-05, 9.704184E-05, 7.507035E-05, -7.651706E-05, -5.670326E-05, 7.003236E-05, 1.949846E-05, -5.770164E-05, 1.384585E-05, 3.190614E-05, -2.794779E-05, -3.172617E-06, 1.979493E-05, -1.160373E-05, -3.711211E-06, 9.132028E-06, -3.749592E-06, -2.910369E-06, 3.569806E-06, 8.004024E-07, -4.318972E-06, 2.978431E-06, 1.924822E-06, -5.797091E-06, 0.000000E+00, 0.000000E+00, 0.000000E+00],
  [0.000000E+00, 0.000000E+00, 0.000000E+00, 0.000000E+00, 0.000000E+00, 0.000000E+00, 0.000000E+00, 0.000000E+00, 0.000000E+00, 0.000000E+00, 0.000000E+00, 0.000000E+00, 0.000000E+00, 0.000000E+00, 0.000000E+00, 0.000000E+00, 0.000000E+00, 0.000000E+00, 0.000000E+00, 0.000000E+00, 0.000000E+00, 0.000000E+00, 0.000000E+00, 0.000000E+00, 0.000000E+00, 0.000000E+00, 0.000000E+00, 0.000000E+00, 0.000000E+00, 0.000000E+00, 0.000000E+00],
  [0.000000E+00, 0.000000E+00, 0.000000E+00, 0.000000E+00, 0.000000E+00, 0.000000E+00, 0.000000E+00, 0.000000E+00, 0.000000E+00, 0.000000E+00, 0.000000E+00, 0.000000E+00, 0.000000E+00, 0.000000E+00, 0.000000E+00, 0.000000E+00, 0.000000E+00, 0.000000E+00, 0.000000E+00, 0.000000E+00, 0.000000E+00, 0.000000E+00, 0.000000E+00, 0.000000E+00, 0.000000E+00, 0.000000E+00, 0.000000E+00, 0.000000E+00, 0.000000E+00, 0.000000E+00, 0.000000E+00],
  [0.000000E+00, 0.000000E+00, 0.000000E+00, 0.000000E+00, 0.000000E+00, 0.000000E+00, 0.000000E+00, 0.000000E+00, 0.000000E+00, 0.000000E+00, 0.000000E+00, 0.000000E+00, 0.000000E+00, 0.000000E+00, 0.000000E+00, 0.000000E+00, 0.000000E+00, 0.000000E+00, 0.000000E+00, 0.000000E+00, 0.000000E+00, 0.000000E+00, 0.000000E+00, 0.000000E+00, 0.000000E+00, 0.000000E+00, 0.000000E+00, 0.000000E+00, 0.000000E+00, 0.000000E+00, 0.000000E+00]]

end Verif.Daejeon
