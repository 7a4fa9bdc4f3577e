import Verif.Daejeon.Number

/-!
# Tables of Daejeon16: coup3gi

The `data` statements of `contrib/Daejeon16/Daejeon16_public_v2.f90`, line by line; a line of the source is a row here.
-/

namespace Verif.Daejeon

/-- `Daejeon16_public_v2.f90` 756-771. -/
def coup3gi_1 : List (List Num) := [
  [2.129296E-01, 1.755054E-01, 7.402768E-02, 4.055650E-03, -1.170105E-02, -2.814639E-03, 2.365203E-03, 6.950825E-04, -6.572967E-04, -1.122650E-04, 2.096224E-04, -1.109648E-05, -6.481483E-05, 2.324025E-05, 1.680620E-05, -1.730683E-05, 5.500906E-07, 9.894889E-06, -8.124559E-06, -3.059330E-07, 7.104299E-06, -7.009116E-06, 7.985729E-07, 5.745869E-06, -6.798977E-06, 1.538044E-06, 5.189155E-06, -7.199999E-06, 2.438451E-06, 0.000000E+00, 0.000000E+00, -8.158980E-01, -4.612774E-01, -5.844648E-02, 6.317461E-02, 2.047940E-02, -1.216397E-02, -4.747154E-03, 3.317119E-03, 8.611524E-04, -1.059829E-03, -3.057202E-05, 3.349029E-04, -8.683981E-05, -9.207758E-05, 7.162390E-05, 8.964816E-06, -4.435724E-05, 2.531270E-05, 1.234945E-05, -3.317355E-05, 2.274657E-05, 7.573707E-06, -3.116202E-05, 2.773666E-05, -3.030542E-07, -2.738975E-05, 3.124814E-05, -7.552591E-06, 0.000000E+00, 0.000000E+00, 0.000000E+00],
  [1.755054E-01, 2.885245E-01, 2.129299E-01, 6.318419E-02, -1.976728E-02, -1.826942E-02, 2.790103E-03, 4.915211E-03, -1.048022E-03, -1.356680E-03, 5.667968E-04, 3.154849E-04, -2.781023E-04, -2.151922E-05, 1.073696E-04, -3.393292E-05, -2.856919E-05, 2.985885E-05, -3.337642E-06, -1.695286E-05, 2.028145E-05, -8.682198E-06, -1.032327E-05, 2.444973E-05, -2.195565E-05, 1.777221E-06, 2.245454E-05, -3.150036E-05, 1.640511E-05, 0.000000E+00, 0.000000E+00, -4.088669E-01, -7.420577E-01, -3.685249E-01, 3.909461E-02, 9.741914E-02, 1.132730E-04, -2.644023E-02, 1.324514E-03, 7.687661E-03, -1.724735E-03, -2.062568E-03, 1.120965E-03, 3.464165E-04, -5.072939E-04, 6.601236E-05, 1.663004E-04, -1.026809E-04, -2.721661E-05, 8.260069E-05, -5.982528E-05, -9.260286E-07, 6.322560E-05, -9.237675E-05, 6.193945E-05, 2.016541E-05, -1.018640E-04, 1.188520E-04, -4.795362E-05, 0.000000E+00, 0.000000E+00, 0.000000E+00],
  [7.402768E-02, 2.129299E-01, 2.722020E-01, 1.619004E-01, 1.461139E-02, -3.523817E-02, -8.822956E-03, 9.873076E-03, 2.229091E-03, -3.509836E-03, -1.305381E-04, 1.269761E-03, -3.034781E-04, -3.744710E-04, 2.456266E-04, 5.353777E-05, -1.230150E-04, 3.379932E-05, 3.865479E-05, -4.131498E-05, 1.395532E-05, 6.250985E-06, -1.671082E-05, 2.497859E-05, -2.569343E-05, 7.559579E-06, 2.562826E-05, -4.967474E-05, 3.947602E-05, 0.000000E+00, 0.000000E+00, -9.353027E-02, -3.623997E-01, -4.983207E-01, -1.626268E-01, 1.121429E-01, 6.900140E-02, -3.312531E-02, -2.129550E-02, 1.351426E-02, 4.920019E-03, -5.855310E-03, -1.325724E-04, 2.181682E-03, -7.296943E-04, -5.557593E-04, 5.275352E-04, -1.299368E-05, -2.192431E-04, 1.254430E-04, 1.759005E-05, -5.671023E-05, 3.340307E-05, -2.925901E-05, 4.573315E-05, -2.453920E-05, -5.698375E-05, 1.371426E-04, -1.219095E-04, 0.000000E+00, 0.000000E+00, 0.000000E+00],
  [4.055650E-03, 6.318419E-02, 1.619004E-01, 1.817985E-01, 8.133411E-02, -1.675343E-02, -2.553803E-02, 4.181342E-03, 8.183449E-03, -2.694267E-03, -2.537536E-03, 1.688874E-03, 5.138047E-04, -8.578246E-04, 1.064779E-04, 3.197485E-04, -1.865713E-04, -5.671303E-05, 1.149360E-04, -3.012312E-05, -4.370316E-05, 3.774259E-05, 8.456500E-06, -2.853670E-05, 3.952641E-06, 2.866767E-05, -2.569966E-05, -1.529658E-05, 5.315037E-05, 0.000000E+00, 0.000000E+00, 1.948386E-02, -2.734560E-02, -1.861097E-01, -2.401219E-01, -2.300259E-02, 9.863429E-02, 1.593035E-02, -3.905127E-02, -1.554372E-03, 1.537372E-02, -3.179737E-03, -5.081831E-03, 3.021612E-03, 8.779148E-04, -1.616943E-03, 3.698555E-04, 5.268542E-04, -4.334776E-04, -3.883750E-05, 2.611963E-04, -1.216009E-04, -1.210072E-04, 1.929931E-04, -4.325540E-05, -1.564790E-04, 1.961687E-04, -2.671482E-05, -1.953654E-04, 0.000000E+00, 0.000000E+00, 0.000000E+00],
  [-1.170105E-02, -1.976728E-02, 1.461139E-02, 8.133411E-02, 9.510805E-02, 3.342331E-02, -1.692821E-02, -1.057972E-02, 6.466716E-03, 2.403510E-03, -3.349873E-03, 3.165744E-05, 1.486605E-03, -5.756139E-04, -4.344720E-04, 4.543320E-04, -1.646149E-05, -2.107242E-04, 1.273302E-04, 4.070763E-05, -1.093487E-04, 5.413382E-05, 4.358318E-05, -8.902080E-05, 4.617662E-05, 4.098295E-05, -9.094289E-05, 5.744315E-05, 3.055003E-05, 0.000000E+00, 0.000000E+00, 1.979653E-02, 5.869911E-02, 5.231145E-02, -4.790333E-02, -9.705283E-02, 1.055538E-02, 5.290702E-02, -8.577522E-03, -2.285523E-02, 8.751000E-03, 7.490678E-03, -6.228115E-03, -8.676061E-04, 3.043441E-03, -1.031068E-03, -8.219163E-04, 9.242321E-04, -1.740163E-04, -3.554782E-04, 3.760529E-04, -9.838587E-05, -1.922297E-04, 2.954800E-04, -1.459682E-04, -1.454803E-04, 3.414025E-04, -2.553907E-04, -7.492782E-05, 0.000000E+00, 0.000000E+00, 0.000000E+00],
  [-2.814639E-03, -1.826942E-02, -3.523817E-02, -1.675343E-02, 3.342331E-02, 5.106572E-02, 1.705880E-02, -1.064307E-02, -4.736325E-03, 3.796656E-03, 1.161157E-04, -1.659079E-03, 7.887668E-04, 4.611160E-04, -6.171187E-04, 7.562366E-05, 2.563413E-04, -1.773667E-04, -1.156325E-05, 9.177141E-05, -6.931870E-05, 1.623013E-05, 3.240904E-05, -6.028674E-05, 4.669721E-05, 9.065530E-06, -6.694873E-05, 7.488119E-05, -1.988028E-05, 0.000000E+00, 0.000000E+00, 3.947406E-04, 1.860476E-02, 5.879228E-02, 6.559156E-02, -4.377735E-03, -4.905973E-02, 7.527560E-03, 2.657177E-02, -9.947957E-03, -1.037402E-02, 8.154697E-03, 1.793704E-03, -4.491381E-03, 1.214703E-03, 1.431168E-03, -1.270857E-03, 5.482330E-05, 5.024957E-04, -2.963257E-04, -1.430174E-05, 7.650651E-05, -1.632182E-05, 3.388871E-05, -1.121973E-04, 9.783167E-05, 6.143146E-05, -2.281025E-04, 2.143771E-04, 0.000000E+00, 0.000000E+00, 0.000000E+00],
  [2.365203E-03, 2.790103E-03, -8.822956E-03, -2.553803E-02, -1.692821E-02, 1.705880E-02, 3.014093E-02, 8.519446E-03, -7.853195E-03, -2.597660E-03, 2.441961E-03, -1.821019E-04, -7.511855E-04, 6.048936E-04, 2.159436E-05, -3.520295E-04, 1.820055E-04, 8.807641E-05, -1.379745E-04, 2.298554E-05, 6.026746E-05, -3.771268E-05, -2.170493E-05, 3.592819E-05, -6.376947E-07, -3.217512E-05, 2.614390E-05, 6.544096E-06, -3.145037E-05, 0.000000E+00, 0.000000E+00, -4.077290E-03, -1.086102E-02, -4.716528E-03, 2.510777E-02, 3.941285E-02, 1.973815E-05, -2.809699E-02, 5.874908E-03, 1.451225E-02, -7.942960E-03, -4.499947E-03, 5.800062E-03, -4.370022E-04, -2.570421E-03, 1.559746E-03, 3.686976E-04, -9.852436E-04, 4.248393E-04, 2.509695E-04, -4.160700E-04, 1.396411E-04, 1.882973E-04, -2.653504E-04, 6.808297E-05, 1.933000E-04, -2.739664E-04, 9.704712E-05, 1.894334E-04, 0.000000E+00, 0.000000E+00, 0.000000E+00],
  [6.950825E-04, 4.915211E-03, 9.873076E-03, 4.181342E-03, -1.057972E-02, -1.064307E-02, 8.519446E-03, 1.649407E-02, 3.335610E-03, -5.404695E-03, -1.073247E-03, 1.616131E-03, -2.659629E-04, -3.195369E-04, 3.691778E-04, -1.276438E-04, -1.323904E-04, 1.726986E-04, -4.326878E-05, -7.282853E-05, 8.525750E-05, -2.313729E-05, -4.155963E-05, 5.777919E-05, -2.351331E-05, -2.350088E-05, 4.472150E-05, -3.273054E-05, 5.383423E-06, 0.000000E+00, 0.000000E+00, -3.618386E-04, -5.414283E-03, -1.653865E-02, -1.894682E-02, 2.439812E-03, 2.100846E-02, 2.096554E-03, -1.552768E-02, 4.069808E-03, 7.657392E-03, -5.589541E-03, -1.558418E-03, 3.642212E-03, -1.094573E-03, -1.176281E-03, 1.186930E-03, -1.636726E-04, -4.235457E-04, 3.393177E-04, -6.755909E-05, -5.902342E-05, 7.154123E-05, -9.021931E-05, 1.071782E-04, -4.130290E-05, -1.037044E-04, 2.052783E-04, -1.444480E-04, 0.000000E+00, 0.000000E+00, 0.000000E+00],
  [-6.572967E-04, -1.048022E-03, 2.229091E-03, 8.183449E-03, 6.466716E-03, -4.736325E-03, -7.853195E-03, 3.335610E-03, 8.897583E-03, 1.241153E-03, -3.448956E-03, -3.382833E-04, 1.048375E-03, -2.331019E-04, -1.524128E-04, 1.989412E-04, -1.024096E-04, -4.001585E-05, 8.812684E-05, -3.117850E-05, -2.577146E-05, 2.605565E-05, -6.398871E-07, -1.058047E-05, 5.294144E-06, 3.553374E-06, -1.147262E-05, 1.381486E-05, 6.676076E-07, 0.000000E+00, 0.000000E+00, 1.031757E-03, 2.908120E-03, 1.381273E-03, -7.803351E-03, -1.440174E-02, -2.692310E-03, 1.203786E-02, 2.276758E-03, -9.157523E-03, 2.595408E-03, 4.200357E-03, -3.674198E-03, -3.334261E-04, 2.162554E-03, -1.098693E-03, -4.509039E-04, 8.623493E-04, -3.349245E-04, -2.416948E-04, 3.651234E-04, -1.179509E-04, -1.588344E-04, 2.170938E-04, -5.297172E-05, -1.520776E-04, 2.073031E-04, -6.740973E-05, -1.437372E-04, 0.000000E+00, 0.000000E+00, 0.000000E+00],
  [-1.122650E-04, -1.356680E-03, -3.509836E-03, -2.694267E-03, 2.403510E-03, 3.796656E-03, -2.597660E-03, -5.404695E-03, 1.241153E-03, 4.881750E-03, 3.494780E-04, -2.113222E-03, 1.852724E-05, 6.482051E-04, -2.001701E-04, -5.803464E-05, 1.002252E-04, -8.710594E-05, 2.094929E-05, 4.967623E-05, -5.680462E-05, 1.065075E-05, 2.807983E-05, -2.811195E-05, 9.126185E-06, 1.680390E-06, -6.975132E-06, 2.193240E-05, -3.581412E-05, 0.000000E+00, 0.000000E+00, 3.339641E-05, 1.370150E-03, 4.937835E-03, 6.836787E-03, 7.635753E-04, -7.642370E-03, -3.557021E-03, 6.488732E-03, 1.790853E-03, -5.408785E-03, 1.683022E-03, 2.323884E-03, -2.340405E-03, 1.070936E-04, 1.190608E-03, -7.985835E-04, -8.034730E-05, 4.263818E-04, -2.420266E-04, -8.917124E-06, 8.059658E-05, -4.800598E-05, 4.275050E-05, -6.731726E-05, 4.373263E-05, 4.931418E-05, -1.346883E-04, 1.196211E-04, 0.000000E+00, 0.000000E+00, 0.000000E+00],
  [2.096224E-04, 5.667968E-04, -1.305381E-04, -2.537536E-03, -3.349873E-03, 1.161157E-04, 2.441961E-03, -1.073247E-03, -3.448956E-03, 3.494780E-04, 2.710245E-03, 4.931166E-05, -1.254691E-03, 1.344939E-04, 3.922388E-04, -1.595756E-04, -3.394267E-05, 6.176891E-05, -4.179820E-05, 9.718092E-06, 1.822249E-05, -2.357673E-05, 8.084470E-06, 1.357508E-05, -2.305412E-05, 5.864526E-06, 2.786182E-05, -3.955392E-05, 2.725612E-06, 0.000000E+00, 0.000000E+00, -3.023880E-04, -1.050280E-03, -1.079691E-03, 1.665882E-03, 5.090331E-03, 2.706695E-03, -3.923076E-03, -3.096513E-03, 3.574281E-03, 1.367048E-03, -3.260890E-03, 1.084238E-03, 1.292815E-03, -1.499006E-03, 2.770137E-04, 6.535389E-04, -6.253850E-04, 9.931265E-05, 2.809293E-04, -2.860828E-04, 6.379304E-05, 1.389795E-04, -1.756087E-04, 5.705632E-05, 9.596280E-05, -1.557974E-04, 8.093218E-05, 6.206203E-05, 0.000000E+00, 0.000000E+00, 0.000000E+00],
  [-1.109648E-05, 3.154849E-04, 1.269761E-03, 1.688874E-03, 3.165744E-05, -1.659079E-03, -1.821019E-04, 1.616131E-03, -3.382833E-04, -2.113222E-03, 4.931166E-05, 1.532414E-03, -4.522324E-05, -7.244965E-04, 1.479160E-04, 2.125209E-04, -1.140874E-04, -9.874514E-07, 2.595771E-05, -2.826386E-05, 1.815627E-05, 2.435194E-06, -9.632749E-06, 2.921364E-06, -5.996547E-06, 1.917827E-05, -1.236838E-05, -2.450040E-05, 5.235742E-05, 0.000000E+00, 0.000000E+00, 4.090538E-05, -2.474446E-04, -1.426120E-03, -2.701587E-03, -1.446243E-03, 2.165371E-03, 2.551651E-03, -1.672681E-03, -2.262249E-03, 1.937107E-03, 9.877953E-04, -1.997309E-03, 6.831503E-04, 7.571223E-04, -9.340888E-04, 2.234414E-04, 3.570145E-04, -3.624759E-04, 6.454184E-05, 1.262001E-04, -9.656083E-05, -5.936728E-06, 3.273301E-05, 1.822546E-05, -5.539970E-05, 2.039834E-05, 5.531617E-05, -9.500128E-05, 0.000000E+00, 0.000000E+00, 0.000000E+00],
  [-6.481483E-05, -2.781023E-04, -3.034781E-04, 5.138047E-04, 1.486605E-03, 7.887668E-04, -7.511855E-04, -2.659629E-04, 1.048375E-03, 1.852724E-05, -1.254691E-03, -4.522324E-05, 8.835025E-04, -6.168635E-05, -4.248142E-04, 1.259014E-04, 1.216299E-04, -8.446745E-05, 2.789661E-06, 1.759339E-05, -1.654500E-05, 1.770318E-05, -6.914698E-06, -1.858148E-05, 3.130647E-05, -6.704664E-06, -3.599727E-05, 4.602735E-05, -1.805574E-06, 0.000000E+00, 0.000000E+00, 9.173614E-05, 4.124715E-04, 7.096001E-04, 6.689658E-05, -1.511546E-03, -1.712767E-03, 6.664143E-04, 1.876665E-03, -5.962763E-04, -1.559692E-03, 1.039469E-03, 6.935205E-04, -1.218054E-03, 4.429929E-04, 4.070945E-04, -5.784604E-04, 2.283401E-04, 1.398951E-04, -2.496836E-04, 1.460513E-04, 9.186054E-06, -1.050473E-04, 1.105621E-04, -4.588983E-05, -4.053097E-05, 9.278686E-05, -7.747981E-05, 6.268105E-06, 0.000000E+00, 0.000000E+00, 0.000000E+00],
  [2.324025E-05, -2.151922E-05, -3.744710E-04, -8.578246E-04, -5.756139E-04, 4.611160E-04, 6.048936E-04, -3.195369E-04, -2.331019E-04, 6.482051E-04, 1.344939E-04, -7.244965E-04, -6.168635E-05, 5.038393E-04, -5.200163E-05, -2.380539E-04, 9.028598E-05, 6.030912E-05, -5.450435E-05, 6.114544E-06, 1.527381E-05, -1.168270E-05, -5.086872E-06, 1.427977E-05, 1.965319E-06, -2.636344E-05, 2.121316E-05, 1.767838E-05, -4.714614E-05, 0.000000E+00, 0.000000E+00, -3.821052E-05, -3.459269E-05, 2.959593E-04, 9.807360E-04, 1.050305E-03, -2.288512E-04, -1.245041E-03, -8.361871E-05, 1.200556E-03, -9.860462E-05, -1.029790E-03, 5.589725E-04, 4.838658E-04, -7.766797E-04, 2.907872E-04, 2.604567E-04, -3.899219E-04, 1.547256E-04, 1.105718E-04, -1.770856E-04, 6.806291E-05, 5.672568E-05, -8.315396E-05, 1.989007E-05, 5.023553E-05, -6.059102E-05, 1.001774E-05, 5.144931E-05, 0.000000E+00, 0.000000E+00, 0.000000E+00],
  [1.680620E-05, 1.073696E-04, 2.456266E-04, 1.064779E-04, -4.344720E-04, -6.171187E-04, 2.159436E-05, 3.691778E-04, -1.524128E-04, -2.001701E-04, 3.922388E-04, 1.479160E-04, -4.248142E-04, -5.200163E-05, 2.976697E-04, -4.206035E-05, -1.383500E-04, 6.375702E-05, 2.914405E-05, -2.959703E-05, 6.305873E-06, -6.496976E-06, 6.222067E-06, 1.357728E-05, -2.819525E-05, 9.331315E-06, 2.798912E-05, -3.948830E-05, 7.096247E-06, 0.000000E+00, 0.000000E+00, -2.905320E-05, -1.425421E-04, -3.499583E-04, -3.523861E-04, 2.092384E-04, 7.666782E-04, 2.505260E-04, -7.138347E-04, -3.085553E-04, 7.136552E-04, 9.636700E-05, -6.669636E-04, 2.826767E-04, 3.396216E-04, -4.741829E-04, 1.704026E-04, 1.411990E-04, -2.113531E-04, 1.005255E-04, 1.917924E-05, -6.001088E-05, 4.490897E-05, -2.438694E-05, 1.380103E-05, 2.975260E-07, -2.431593E-05, 4.285282E-05, -3.516452E-05, 0.000000E+00, 0.000000E+00, 0.000000E+00],
  [-1.730683E-05, -3.393292E-05, 5.353777E-05, 3.197485E-04, 4.543320E-04, 7.562366E-05, -3.520295E-04, -1.276438E-04, 1.989412E-04, -5.803464E-05, -1.595756E-04, 2.125209E-04, 1.259014E-04, -2.380539E-04, -4.206035E-05, 1.716725E-04, -2.917821E-05, -8.001584E-05, 4.770665E-05, 1.430337E-05, -3.185474E-05, 1.347645E-05, 1.308830E-05, -2.251756E-05, 3.801804E-06, 2.278758E-05, -2.394834E-05, -4.822364E-06, 3.151574E-05, 0.000000E+00, 0.000000E+00, 3.498901E-05, 7.432128E-05, 1.250125E-05, -2.594589E-04, -5.112590E-04, -2.401333E-04, 3.844459E-04, 3.704225E-04, -3.308265E-04, -3.304865E-04, 3.889716E-04, 1.510920E-04, -4.188741E-04, 1.457142E-04, 2.230623E-04, -3.066155E-04, 1.322306E-04, 7.465403E-05, -1.564322E-04, 1.041957E-04, -1.345118E-07, -7.082447E-05, 7.357415E-05, -2.567833E-05, -2.967717E-05, 5.484998E-05, -3.758050E-05, -5.848334E-06, 0.000000E+00, 0.000000E+00, 0.000000E+00]]

/-- `Daejeon16_public_v2.f90` 772-787. -/
def coup3gi_2 : List (List Num) := [
  [5.500906E-07, -2.856919E-05, -1.230150E-04, -1.865713E-04, -1.646149E-05, 2.563413E-04, 1.820055E-04, -1.323904E-04, -1.024096E-04, 1.002252E-04, -3.394267E-05, -1.140874E-04, 1.216299E-04, 9.028598E-05, -1.383500E-04, -2.917821E-05, 9.990651E-05, -1.522833E-05, -4.521689E-05, 1.984252E-05, 1.173548E-05, -4.192045E-06, -9.697485E-06, -7.721158E-07, 1.838739E-05, -1.312464E-05, -1.198185E-05, 2.633201E-05, -1.222383E-05, 0.000000E+00, 0.000000E+00, -4.312083E-06, 2.610606E-05, 1.359760E-04, 2.535961E-04, 1.359185E-04, -2.061693E-04, -2.776076E-04, 1.080991E-04, 2.860385E-04, -1.143901E-04, -2.549600E-04, 1.979897E-04, 1.429170E-04, -2.658665E-04, 6.775237E-05, 1.650270E-04, -2.020683E-04, 7.176742E-05, 6.432508E-05, -9.889429E-05, 4.477227E-05, 2.053013E-05, -3.990839E-05, 1.455810E-05, 1.705948E-05, -2.246348E-05, 5.781234E-07, 2.452642E-05, 0.000000E+00, 0.000000E+00, 0.000000E+00],
  [9.894889E-06, 2.985885E-05, 3.379932E-05, -5.671303E-05, -2.107242E-04, -1.773667E-04, 8.807641E-05, 1.726986E-04, -4.001585E-05, -8.710594E-05, 6.176891E-05, -9.874514E-07, -8.446745E-05, 6.030912E-05, 6.375702E-05, -8.001584E-05, -1.522833E-05, 6.015156E-05, -2.072959E-05, -2.259233E-05, 2.737446E-05, -7.892614E-06, -1.317460E-05, 1.986079E-05, -6.416649E-06, -1.400701E-05, 1.940180E-05, -4.011253E-06, -1.507576E-05, 0.000000E+00, 0.000000E+00, -2.201214E-05, -5.429656E-05, -6.755596E-05, -2.275021E-06, 1.624715E-04, 2.137633E-04, -2.577694E-05, -2.201743E-04, -1.514531E-05, 2.050350E-04, -1.447330E-05, -1.892580E-04, 9.307501E-05, 1.213545E-04, -1.619072E-04, 2.311258E-05, 1.073254E-04, -1.174986E-04, 4.544176E-05, 2.201866E-05, -4.371587E-05, 3.262682E-05, -1.567148E-05, 3.687124E-06, 7.174019E-06, -1.895850E-05, 2.446310E-05, -1.543990E-05, 0.000000E+00, 0.000000E+00, 0.000000E+00],
  [-8.124559E-06, -3.337642E-06, 3.865479E-05, 1.149360E-04, 1.273302E-04, -1.156325E-05, -1.379745E-04, -4.326878E-05, 8.812684E-05, 2.094929E-05, -4.179820E-05, 2.595771E-05, 2.789661E-06, -5.450435E-05, 2.914405E-05, 4.770665E-05, -4.521689E-05, -2.072959E-05, 3.981864E-05, -5.011453E-07, -2.523554E-05, 8.287891E-06, 1.472276E-05, -1.099222E-05, -8.300162E-06, 1.473614E-05, -1.826939E-06, -1.261951E-05, 1.237436E-05, 0.000000E+00, 0.000000E+00, 2.514854E-05, 2.552481E-05, -3.153962E-05, -1.132612E-04, -1.417686E-04, -3.266643E-05, 1.244534E-04, 8.255071E-05, -1.015727E-04, -7.730850E-05, 1.062617E-04, 4.199454E-05, -1.193171E-04, 2.803769E-05, 9.039905E-05, -9.713913E-05, 9.826671E-06, 7.082114E-05, -8.420859E-05, 4.170622E-05, 1.252651E-05, -4.324093E-05, 3.992932E-05, -1.328746E-05, -1.588365E-05, 2.918856E-05, -2.051946E-05, -1.441532E-06, 0.000000E+00, 0.000000E+00, 0.000000E+00],
  [-3.059330E-07, -1.695286E-05, -4.131498E-05, -3.012312E-05, 4.070763E-05, 9.177141E-05, 2.298554E-05, -7.282853E-05, -3.117850E-05, 4.967623E-05, 9.718092E-06, -2.826386E-05, 1.759339E-05, 6.114544E-06, -2.959703E-05, 1.430337E-05, 1.984252E-05, -2.259233E-05, -5.011453E-07, 1.397677E-05, -1.000373E-05, 9.064623E-07, 6.208136E-06, -8.786310E-06, 4.237521E-06, 4.562624E-06, -9.063209E-06, 4.762435E-06, 3.473526E-06, 0.000000E+00, 0.000000E+00, -8.989877E-06, 1.592790E-05, 6.553650E-05, 6.175873E-05, -1.788718E-05, -8.356251E-05, -4.057384E-05, 5.620446E-05, 5.173847E-05, -4.415671E-05, -4.839846E-05, 5.167989E-05, 3.348419E-05, -7.024829E-05, 8.945156E-06, 6.410030E-05, -6.267766E-05, -1.240266E-06, 5.615532E-05, -5.711508E-05, 1.778739E-05, 1.965885E-05, -2.784826E-05, 1.114644E-05, 7.846104E-06, -1.195801E-05, 1.772526E-06, 9.761561E-06, 0.000000E+00, 0.000000E+00, 0.000000E+00],
  [7.104299E-06, 2.028145E-05, 1.395532E-05, -4.370316E-05, -1.093487E-04, -6.931870E-05, 6.026746E-05, 8.525750E-05, -2.577146E-05, -5.680462E-05, 1.822249E-05, 1.815627E-05, -1.654500E-05, 1.527381E-05, 6.305873E-06, -3.185474E-05, 1.173548E-05, 2.737446E-05, -2.523554E-05, -1.000373E-05, 2.550258E-05, -6.217955E-06, -1.592674E-05, 1.431829E-05, 3.026560E-06, -1.302617E-05, 7.121243E-06, 4.443364E-06, -9.062891E-06, 0.000000E+00, 0.000000E+00, -1.054773E-05, -3.853867E-05, -4.599284E-05, 1.597424E-05, 1.019896E-04, 8.541952E-05, -4.096971E-05, -8.880525E-05, 1.613377E-05, 7.305836E-05, -1.602083E-05, -5.993880E-05, 2.925918E-05, 4.442571E-05, -4.999015E-05, -9.807767E-06, 5.223727E-05, -3.466483E-05, -1.098956E-05, 3.612982E-05, -2.841779E-05, 8.410245E-06, 3.202957E-06, -4.203141E-06, 3.786895E-06, -7.241142E-06, 1.068465E-05, -7.788693E-06, 0.000000E+00, 0.000000E+00, 0.000000E+00],
  [-7.009116E-06, -8.682198E-06, 6.250985E-06, 3.774259E-05, 5.413382E-05, 1.623013E-05, -3.771268E-05, -2.313729E-05, 2.605565E-05, 1.065075E-05, -2.357673E-05, 2.435194E-06, 1.770318E-05, -1.168270E-05, -6.496976E-06, 1.347645E-05, -4.192045E-06, -7.892614E-06, 8.287891E-06, 9.064623E-07, -6.217955E-06, 2.392240E-06, 3.141561E-06, -3.189524E-06, -7.006590E-07, 2.974380E-06, -1.537335E-06, -1.310968E-06, 2.622485E-06, 0.000000E+00, 0.000000E+00, 1.863153E-05, 2.899095E-05, 5.444983E-06, -3.390987E-05, -5.387458E-05, -2.703538E-05, 3.125390E-05, 3.755284E-05, -1.975841E-05, -3.284964E-05, 1.894882E-05, 2.545927E-05, -2.559475E-05, -1.160500E-05, 3.146729E-05, -1.328323E-05, -1.698901E-05, 2.844343E-05, -1.576225E-05, -5.801900E-06, 2.028562E-05, -2.191829E-05, 1.355533E-05, -1.265885E-06, -9.028507E-06, 1.311540E-05, -9.814709E-06, 1.646676E-06, 0.000000E+00, 0.000000E+00, 0.000000E+00],
  [7.985729E-07, -1.032327E-05, -1.671082E-05, 8.456500E-06, 4.358318E-05, 3.240904E-05, -2.170493E-05, -4.155963E-05, -6.398871E-07, 2.807983E-05, 8.084470E-06, -9.632749E-06, -6.914698E-06, -5.086872E-06, 6.222067E-06, 1.308830E-05, -9.697485E-06, -1.317460E-05, 1.472276E-05, 6.208136E-06, -1.592674E-05, 3.141561E-06, 1.095782E-05, -8.818613E-06, -2.951728E-06, 8.557967E-06, -3.673383E-06, -3.556378E-06, 5.226926E-06, 0.000000E+00, 0.000000E+00, -1.183788E-05, 4.961833E-06, 3.846973E-05, 1.221060E-05, -4.767439E-05, -3.798354E-05, 2.270409E-05, 3.314674E-05, -1.179194E-05, -2.341992E-05, 1.011647E-05, 1.397344E-05, -7.772341E-06, -9.445217E-06, 5.626299E-06, 1.135598E-05, -1.279935E-05, -5.642784E-06, 2.082872E-05, -1.476376E-05, -5.589978E-06, 2.011417E-05, -1.771871E-05, 4.209071E-06, 7.131778E-06, -8.634800E-06, 2.711701E-06, 3.230587E-06, 0.000000E+00, 0.000000E+00, 0.000000E+00],
  [5.745869E-06, 2.444973E-05, 2.497859E-05, -2.853670E-05, -8.902080E-05, -6.028674E-05, 3.592819E-05, 5.777919E-05, -1.058047E-05, -2.811195E-05, 1.357508E-05, 2.921364E-06, -1.858148E-05, 1.427977E-05, 1.357728E-05, -2.251756E-05, -7.721158E-07, 1.986079E-05, -1.099222E-05, -8.786310E-06, 1.431829E-05, -3.189524E-06, -8.818613E-06, 9.202274E-06, -1.454696E-07, -7.445443E-06, 6.548330E-06, 2.982850E-07, -5.697199E-06, 0.000000E+00, 0.000000E+00, -9.888695E-07, -3.689504E-05, -6.869881E-05, -3.138933E-06, 9.579167E-05, 7.294052E-05, -4.018232E-05, -6.761623E-05, 1.866185E-05, 5.220281E-05, -1.748613E-05, -3.674326E-05, 2.098548E-05, 2.240847E-05, -2.386541E-05, -8.732351E-06, 2.492638E-05, -7.866782E-06, -1.616569E-05, 2.006757E-05, -4.462164E-06, -1.149142E-05, 1.403023E-05, -5.680414E-06, -2.277228E-06, 2.809379E-06, 1.741537E-06, -4.523081E-06, 0.000000E+00, 0.000000E+00, 0.000000E+00],
  [-6.798977E-06, -2.195565E-05, -2.569343E-05, 3.952641E-06, 4.617662E-05, 4.669721E-05, -6.376947E-07, -2.351331E-05, 5.294144E-06, 9.126185E-06, -2.305412E-05, -5.996547E-06, 3.130647E-05, 1.965319E-06, -2.819525E-05, 3.801804E-06, 1.838739E-05, -6.416649E-06, -8.300162E-06, 4.237521E-06, 3.026560E-06, -7.006590E-07, -2.951728E-06, -1.454696E-07, 4.423603E-06, -2.338694E-06, -3.569527E-06, 5.400792E-06, -9.453543E-07, 0.000000E+00, 0.000000E+00, 7.855569E-06, 3.970220E-05, 6.197335E-05, 1.777867E-05, -4.865969E-05, -5.297068E-05, 1.426408E-06, 4.104670E-05, 1.169724E-05, -3.344226E-05, -9.139663E-06, 2.980710E-05, -4.795027E-07, -2.453103E-05, 1.256812E-05, 1.225622E-05, -1.876438E-05, 5.446620E-06, 9.760852E-06, -1.348676E-05, 6.309513E-06, 3.043809E-06, -7.337804E-06, 5.738311E-06, -2.188738E-06, 5.804579E-07, -1.412955E-06, 2.301152E-06, 0.000000E+00, 0.000000E+00, 0.000000E+00],
  [1.538044E-06, 1.777221E-06, 7.559579E-06, 2.866767E-05, 4.098295E-05, 9.065530E-06, -3.217512E-05, -2.350088E-05, 3.553374E-06, 1.680390E-06, 5.864526E-06, 1.917827E-05, -6.704664E-06, -2.636344E-05, 9.331315E-06, 2.278758E-05, -1.312464E-05, -1.400701E-05, 1.473614E-05, 4.562624E-06, -1.302617E-05, 2.974380E-06, 8.557967E-06, -7.445443E-06, -2.338694E-06, 7.902891E-06, -3.749815E-06, -3.965815E-06, 6.547133E-06, 0.000000E+00, 0.000000E+00, -4.380689E-06, -8.833399E-06, -9.766870E-06, -2.284829E-05, -4.491283E-05, -1.686300E-05, 4.473218E-05, 2.731761E-05, -3.956223E-05, -1.915865E-05, 3.599532E-05, 4.125969E-06, -2.770316E-05, 9.477966E-06, 1.236479E-05, -1.203402E-05, 1.209178E-06, 3.585994E-06, -2.136318E-06, 1.463187E-06, -3.128903E-06, 3.420630E-06, -2.327892E-07, -3.978984E-06, 5.386451E-06, -3.108403E-06, -2.224406E-07, 1.553572E-06, 0.000000E+00, 0.000000E+00, 0.000000E+00],
  [5.189155E-06, 2.245454E-05, 2.562826E-05, -2.569966E-05, -9.094289E-05, -6.694873E-05, 2.614390E-05, 4.472150E-05, -1.147262E-05, -6.975132E-06, 2.786182E-05, -1.236838E-05, -3.599727E-05, 2.121316E-05, 2.798912E-05, -2.394834E-05, -1.198185E-05, 1.940180E-05, -1.826939E-06, -9.063209E-06, 7.121243E-06, -1.537335E-06, -3.673383E-06, 6.548330E-06, -3.569527E-06, -3.749815E-06, 7.676133E-06, -3.501651E-06, -4.327650E-06, 0.000000E+00, 0.000000E+00, -3.334307E-06, -3.137266E-05, -6.081843E-05, -9.355606E-06, 9.557010E-05, 8.836464E-05, -4.214345E-05, -8.221161E-05, 2.490449E-05, 6.268412E-05, -2.682181E-05, -3.996718E-05, 3.049154E-05, 1.618932E-05, -2.603955E-05, 9.191006E-07, 1.564279E-05, -7.609951E-06, -6.949402E-06, 9.295989E-06, 2.664624E-08, -8.333984E-06, 7.061593E-06, 1.041291E-06, -7.214685E-06, 6.170427E-06, -2.514749E-07, -4.188395E-06, 0.000000E+00, 0.000000E+00, 0.000000E+00],
  [-7.199999E-06, -3.150036E-05, -4.967474E-05, -1.529658E-05, 5.744315E-05, 7.488119E-05, 6.544096E-06, -3.273054E-05, 1.381486E-05, 2.193240E-05, -3.955392E-05, -2.450040E-05, 4.602735E-05, 1.767838E-05, -3.948830E-05, -4.822364E-06, 2.633201E-05, -4.011253E-06, -1.261951E-05, 4.762435E-06, 4.443364E-06, -1.310968E-06, -3.556378E-06, 2.982850E-07, 5.400792E-06, -3.965815E-06, -3.501651E-06, 7.574811E-06, -3.196265E-06, 0.000000E+00, 0.000000E+00, 5.528958E-06, 4.677239E-05, 9.814741E-05, 6.013231E-05, -5.492248E-05, -9.828159E-05, -1.250533E-05, 7.168603E-05, 2.585333E-05, -5.574989E-05, -1.621039E-05, 4.584442E-05, -1.427445E-06, -3.252328E-05, 1.579111E-05, 1.489619E-05, -2.039752E-05, 2.525150E-06, 1.388449E-05, -1.320372E-05, 1.640648E-07, 1.070734E-05, -1.042215E-05, 1.547566E-06, 6.878909E-06, -8.183964E-06, 2.811536E-06, 3.531871E-06, 0.000000E+00, 0.000000E+00, 0.000000E+00],
  [2.438451E-06, 1.640511E-05, 3.947602E-05, 5.315037E-05, 3.055003E-05, -1.988028E-05, -3.145037E-05, 5.383423E-06, 6.676076E-07, -3.581412E-05, 2.725612E-06, 5.235742E-05, -1.805574E-06, -4.714614E-05, 7.096247E-06, 3.151574E-05, -1.222383E-05, -1.507576E-05, 1.237436E-05, 3.473526E-06, -9.062891E-06, 2.622485E-06, 5.226926E-06, -5.697199E-06, -9.453543E-07, 6.547133E-06, -4.327650E-06, -3.196265E-06, 7.391898E-06, 0.000000E+00, 0.000000E+00, 1.614938E-06, -2.251665E-05, -6.661251E-05, -7.640758E-05, -4.081327E-05, 2.357776E-05, 6.588926E-05, 6.907230E-06, -6.401351E-05, -4.162493E-06, 5.379153E-05, -1.172954E-05, -3.453689E-05, 2.389564E-05, 1.000193E-05, -2.221529E-05, 9.708276E-06, 7.153201E-06, -1.346233E-05, 8.028897E-06, 1.859125E-06, -8.324329E-06, 8.004218E-06, -2.622132E-06, -3.517439E-06, 6.508751E-06, -4.872404E-06, 1.853430E-07, 0.000000E+00, 0.000000E+00, 0.000000E+00],
  [0.000000E+00, 0.000000E+00, 0.000000E+00, 0.000000E+00, 0.000000E+00, 0.000000E+00, 0.000000E+00, 0.000000E+00, 0.000000E+00, 0.000000E+00, 0.000000E+00, 0.000000E+00, 0.000000E+00, 0.000000E+00, 0.000000E+00, 0.000000E+00, 0.000000E+00, 0.000000E+00, 0.000000E+00, 0.000000E+00, 0.000000E+00, 0.000000E+00, 0.000000E+00, 0.000000E+00, 0.000000E+00, 0.000000E+00, 0.000000E+00, 0.000000E+00, 0.000000E+00, 0.000000E+00, 0.000000E+00, 0.000000E+00, 0.000000E+00, 0.000000E+00, 0.000000E+00, 0.000000E+00, 0.000000E+00, 0.000000E+00, 0.000000E+00, 0.000000E+00, 0.000000E+00, 0.000000E+00, 0.000000E+00, 0.000000E+00, 0.000000E+00, 0.000000E+00, 0.000000E+00, 0.000000E+00, 0.000000E+00, 0.000000E+00, 0.000000E+00, 0.000000E+00, 0.000000E+00, 0.000000E+00, 0.000000E+00, 0.000000E+00, 0.000000E+00, 0.000000E+00, 0.000000E+00, 0.000000E+00, 0.000000E+00, 0.000000E+00],
  [0.000000E+00, 0.000000E+00, 0.000000E+00, 0.000000E+00, 0.000000E+00, 0.000000E+00, 0.000000E+00, 0.000000E+00, 0.000000E+00, 0.000000E+00, 0.000000E+00, 0.000000E+00, 0.000000E+00, 0.000000E+00, 0.000000E+00, 0.000000E+00, 0.000000E+00, 0.000000E+00, 0.000000E+00, 0.000000E+00, 0.000000E+00, 0.000000E+00, 0.000000E+00, 0.000000E+00, 0.000000E+00, 0.000000E+00, 0.000000E+00, 0.000000E+00, 0.000000E+00, 0.000000E+00, 0.000000E+00, 0.000000E+00, 0.000000E+00, 0.000000E+00, 0.000000E+00, 0.000000E+00, 0.000000E+00, 0.000000E+00, 0.000000E+00, 0.000000E+00, 0.000000E+00, 0.000000E+00, 0.000000E+00, 0.000000E+00, 0.000000E+00, 0.000000E+00, 0.000000E+00, 0.000000E+00, 0.000000E+00, 0.000000E+00, 0.000000E+00, 0.000000E+00, 0.000000E+00, 0.000000E+00, 0.000000E+00, 0.000000E+00, 0.000000E+00, 0.000000E+00, 0.000000E+00, 0.000000E+00, 0.000000E+00, 0.000000E+00],
  [-8.158980E-01, -4.088669E-01, -9.353027E-02, 1.948386E-02, 1.979653E-02, 3.947406E-04, -4.077290E-03, -3.618386E-04, 1.031757E-03, 3.339641E-05, -3.023880E-04, 4.090538E-05, 9.173614E-05, -3.821052E-05, -2.905320E-05, 3.498901E-05, -4.312083E-06, -2.201214E-05, 2.514854E-05, -8.989877E-06, -1.054773E-05, 1.863153E-05, -1.183788E-05, -9.888695E-07, 7.855569E-06, -4.380689E-06, -3.334307E-06, 5.528958E-06, 1.614938E-06, 0.000000E+00, 0.000000E+00, 1.887686E-01, 1.153286E-01, 2.329395E-02, -1.302543E-02, -7.633212E-03, 1.934102E-03, 2.029014E-03, -5.318834E-04, -5.436282E-04, 2.315610E-04, 1.305413E-04, -1.096988E-04, -1.326080E-05, 4.574022E-05, -1.422595E-05, -1.244366E-05, 1.426551E-05, -3.587380E-06, -6.098240E-06, 9.034635E-06, -4.778189E-06, -3.343241E-06, 9.271531E-06, -7.926507E-06, -3.142259E-07, 9.078365E-06, -1.087599E-05, 3.523395E-06, 0.000000E+00, 0.000000E+00, 0.000000E+00]]

/-- `Daejeon16_public_v2.f90` 788-803. -/
def coup3gi_3 : List (List Num) := [
  [-4.612774E-01, -7.420577E-01, -3.623997E-01, -2.734560E-02, 5.869911E-02, 1.860476E-02, -1.086102E-02, -5.414283E-03, 2.908120E-03, 1.370150E-03, -1.050280E-03, -2.474446E-04, 4.124715E-04, -3.459269E-05, -1.425421E-04, 7.432128E-05, 2.610606E-05, -5.429656E-05, 2.552481E-05, 1.592790E-05, -3.853867E-05, 2.899095E-05, 4.961833E-06, -3.689504E-05, 3.970220E-05, -8.833399E-06, -3.137266E-05, 4.677239E-05, -2.251665E-05, 0.000000E+00, 0.000000E+00, 1.153286E-01, 1.874083E-01, 9.575094E-02, -5.039887E-03, -2.545404E-02, -2.863585E-03, 6.975570E-03, 8.400604E-04, -2.227724E-03, 3.300281E-05, 7.405708E-04, -1.964659E-04, -2.050003E-04, 1.416453E-04, 2.383074E-05, -6.613584E-05, 2.143324E-05, 1.843040E-05, -2.412845E-05, 1.175458E-05, 2.363021E-06, -1.403492E-05, 2.080566E-05, -1.650872E-05, -1.380317E-06, 2.359610E-05, -3.279948E-05, 1.802145E-05, 0.000000E+00, 0.000000E+00, 0.000000E+00],
  [-5.844648E-02, -3.685249E-01, -4.983207E-01, -1.861097E-01, 5.231145E-02, 5.879228E-02, -4.716528E-03, -1.653865E-02, 1.381273E-03, 4.937835E-03, -1.079691E-03, -1.426120E-03, 7.096001E-04, 2.959593E-04, -3.499583E-04, 1.250125E-05, 1.359760E-04, -6.755596E-05, -3.153962E-05, 6.553650E-05, -4.599284E-05, 5.444983E-06, 3.846973E-05, -6.869881E-05, 6.197335E-05, -9.766870E-06, -6.081843E-05, 9.814741E-05, -6.661251E-05, 0.000000E+00, 0.000000E+00, 2.329395E-02, 9.575094E-02, 1.216063E-01, 3.795983E-02, -2.770237E-02, -1.826709E-02, 7.334064E-03, 6.156465E-03, -2.939685E-03, -1.736764E-03, 1.399973E-03, 2.796961E-04, -6.119349E-04, 1.044076E-04, 2.039974E-04, -1.303102E-04, -2.678904E-05, 7.099626E-05, -2.597774E-05, -1.654361E-05, 1.875507E-05, -2.853455E-06, -7.242515E-07, -9.826847E-06, 1.321986E-05, 4.844319E-06, -3.190356E-05, 3.883713E-05, 0.000000E+00, 0.000000E+00, 0.000000E+00],
  [6.317461E-02, 3.909461E-02, -1.626268E-01, -2.401219E-01, -4.790333E-02, 6.559156E-02, 2.510777E-02, -1.894682E-02, -7.803351E-03, 6.836787E-03, 1.665882E-03, -2.701587E-03, 6.689658E-05, 9.807360E-04, -3.523861E-04, -2.594589E-04, 2.535961E-04, -2.275021E-06, -1.132612E-04, 6.175873E-05, 1.597424E-05, -3.390987E-05, 1.221060E-05, -3.138933E-06, 1.777867E-05, -2.284829E-05, -9.355606E-06, 6.013231E-05, -7.640758E-05, 0.000000E+00, 0.000000E+00, -1.302543E-02, -5.039887E-03, 3.795983E-02, 5.096495E-02, 2.251900E-03, -2.322841E-02, -3.840601E-03, 9.073083E-03, 8.337051E-04, -3.611021E-03, 4.486837E-04, 1.295146E-03, -6.013047E-04, -3.030448E-04, 3.777819E-04, -4.211011E-05, -1.488778E-04, 9.785770E-05, 2.307908E-05, -7.056551E-05, 2.999653E-05, 3.274367E-05, -5.229616E-05, 1.522793E-05, 3.817494E-05, -5.426834E-05, 1.508275E-05, 4.481813E-05, 0.000000E+00, 0.000000E+00, 0.000000E+00],
  [2.047940E-02, 9.741914E-02, 1.121429E-01, -2.300259E-02, -9.705283E-02, -4.377735E-03, 3.941285E-02, 2.439812E-03, -1.440174E-02, 7.635753E-04, 5.090331E-03, -1.446243E-03, -1.511546E-03, 1.050305E-03, 2.092384E-04, -5.112590E-04, 1.359185E-04, 1.624715E-04, -1.417686E-04, -1.788718E-05, 1.019896E-04, -5.387458E-05, -4.767439E-05, 9.579167E-05, -4.865969E-05, -4.491283E-05, 9.557010E-05, -5.492248E-05, -4.081327E-05, 0.000000E+00, 0.000000E+00, -7.633212E-03, -2.545404E-02, -2.770237E-02, 2.251900E-03, 1.861666E-02, -3.034511E-03, -1.162030E-02, 1.694943E-03, 5.129782E-03, -1.597932E-03, -1.781394E-03, 1.195977E-03, 3.252404E-04, -6.343914E-04, 1.446588E-04, 2.049609E-04, -1.771664E-04, 1.239399E-05, 8.020274E-05, -7.141786E-05, 1.521537E-05, 3.874993E-05, -5.973351E-05, 3.392154E-05, 2.414085E-05, -7.052669E-05, 6.194250E-05, 3.910613E-06, 0.000000E+00, 0.000000E+00, 0.000000E+00],
  [-1.216397E-02, 1.132730E-04, 6.900140E-02, 9.863429E-02, 1.055538E-02, -4.905973E-02, 1.973815E-05, 2.100846E-02, -2.692310E-03, -7.642370E-03, 2.706695E-03, 2.165371E-03, -1.712767E-03, -2.288512E-04, 7.666782E-04, -2.401333E-04, -2.061693E-04, 2.137633E-04, -3.266643E-05, -8.356251E-05, 8.541952E-05, -2.703538E-05, -3.798354E-05, 7.294052E-05, -5.297068E-05, -1.686300E-05, 8.836464E-05, -9.828159E-05, 2.357776E-05, 0.000000E+00, 0.000000E+00, 1.934102E-03, -2.863585E-03, -1.826709E-02, -2.322841E-02, -3.034511E-03, 1.005869E-02, -1.898174E-03, -6.008066E-03, 2.072040E-03, 2.508187E-03, -1.603118E-03, -5.998221E-04, 9.167385E-04, -1.214403E-04, -3.405307E-04, 2.180310E-04, 3.546624E-05, -1.102424E-04, 4.084657E-05, 2.311741E-05, -2.070806E-05, -7.323154E-06, 8.961354E-06, 1.600738E-05, -2.895918E-05, 4.836994E-06, 3.717246E-05, -5.242503E-05, 0.000000E+00, 0.000000E+00, 0.000000E+00],
  [-4.747154E-03, -2.644023E-02, -3.312531E-02, 1.593035E-02, 5.290702E-02, 7.527560E-03, -2.809699E-02, 2.096554E-03, 1.203786E-02, -3.557021E-03, -3.923076E-03, 2.551651E-03, 6.664143E-04, -1.245041E-03, 2.505260E-04, 3.844459E-04, -2.776076E-04, -2.577694E-05, 1.244534E-04, -4.057384E-05, -4.096971E-05, 3.125390E-05, 2.270409E-05, -4.018232E-05, 1.426408E-06, 4.473218E-05, -4.214345E-05, -1.250533E-05, 6.588926E-05, 0.000000E+00, 0.000000E+00, 2.029014E-03, 6.975570E-03, 7.334064E-03, -3.840601E-03, -1.162030E-02, -1.898174E-03, 5.578168E-03, -1.564590E-03, -3.156325E-03, 1.816125E-03, 1.109988E-03, -1.243115E-03, -3.942441E-05, 5.750309E-04, -2.556440E-04, -1.267259E-04, 1.914226E-04, -5.689057E-05, -6.194806E-05, 7.867113E-05, -2.343102E-05, -3.764366E-05, 5.583036E-05, -2.165594E-05, -3.411308E-05, 6.260107E-05, -3.531651E-05, -2.920604E-05, 0.000000E+00, 0.000000E+00, 0.000000E+00],
  [3.317119E-03, 1.324514E-03, -2.129550E-02, -3.905127E-02, -8.577522E-03, 2.657177E-02, 5.874908E-03, -1.552768E-02, 2.276758E-03, 6.488732E-03, -3.096513E-03, -1.672681E-03, 1.876665E-03, -8.361871E-05, -7.138347E-04, 3.704225E-04, 1.080991E-04, -2.201743E-04, 8.255071E-05, 5.620446E-05, -8.880525E-05, 3.755284E-05, 3.314674E-05, -6.761623E-05, 4.104670E-05, 2.731761E-05, -8.221161E-05, 7.168603E-05, 6.907230E-06, 0.000000E+00, 0.000000E+00, -5.318834E-04, 8.400604E-04, 6.156465E-03, 9.073083E-03, 1.694943E-03, -6.008066E-03, -1.564590E-03, 3.129187E-03, -9.627403E-04, -1.602473E-03, 1.266439E-03, 3.924650E-04, -8.012700E-04, 1.618359E-04, 2.903018E-04, -2.177376E-04, -1.025017E-05, 9.651246E-05, -4.854164E-05, -8.479543E-06, 1.568191E-05, -4.578700E-07, 2.354036E-06, -1.953946E-05, 2.125600E-05, 6.723292E-06, -4.047509E-05, 4.209653E-05, 0.000000E+00, 0.000000E+00, 0.000000E+00],
  [8.611524E-04, 7.687661E-03, 1.351426E-02, -1.554372E-03, -2.285523E-02, -9.947957E-03, 1.451225E-02, 4.069808E-03, -9.157523E-03, 1.790853E-03, 3.574281E-03, -2.262249E-03, -5.962763E-04, 1.200556E-03, -3.085553E-04, -3.308265E-04, 2.860385E-04, -1.514531E-05, -1.015727E-04, 5.173847E-05, 1.613377E-05, -1.975841E-05, -1.179194E-05, 1.866185E-05, 1.169724E-05, -3.956223E-05, 2.490449E-05, 2.585333E-05, -6.401351E-05, 0.000000E+00, 0.000000E+00, -5.436282E-04, -2.227724E-03, -2.939685E-03, 8.337051E-04, 5.129782E-03, 2.072040E-03, -3.156325E-03, -9.627403E-04, 1.880811E-03, -6.264023E-04, -8.494465E-04, 8.366184E-04, 8.522423E-05, -4.833885E-04, 2.015937E-04, 1.248219E-04, -1.696440E-04, 4.587551E-05, 5.629941E-05, -6.800394E-05, 1.968467E-05, 3.188292E-05, -4.617103E-05, 1.636320E-05, 2.952546E-05, -4.969730E-05, 2.376952E-05, 2.748615E-05, 0.000000E+00, 0.000000E+00, 0.000000E+00],
  [-1.059829E-03, -1.724735E-03, 4.920019E-03, 1.537372E-02, 8.751000E-03, -1.037402E-02, -7.942960E-03, 7.657392E-03, 2.595408E-03, -5.408785E-03, 1.367048E-03, 1.937107E-03, -1.559692E-03, -9.860462E-05, 7.136552E-04, -3.304865E-04, -1.143901E-04, 2.050350E-04, -7.730850E-05, -4.415671E-05, 7.305836E-05, -3.284964E-05, -2.341992E-05, 5.220281E-05, -3.344226E-05, -1.915865E-05, 6.268412E-05, -5.574989E-05, -4.162493E-06, 0.000000E+00, 0.000000E+00, 2.315610E-04, 3.300281E-05, -1.736764E-03, -3.611021E-03, -1.597932E-03, 2.508187E-03, 1.816125E-03, -1.602473E-03, -6.264023E-04, 1.114769E-03, -3.990303E-04, -4.505695E-04, 5.267111E-04, -2.648623E-05, -2.695226E-04, 1.575184E-04, 4.137537E-05, -9.261457E-05, 3.241304E-05, 1.858061E-05, -1.655451E-05, -3.636722E-06, 3.125958E-06, 1.465977E-05, -1.979731E-05, -1.455413E-06, 2.917281E-05, -3.281887E-05, 0.000000E+00, 0.000000E+00, 0.000000E+00],
  [-3.057202E-05, -2.062568E-03, -5.855310E-03, -3.179737E-03, 7.490678E-03, 8.154697E-03, -4.499947E-03, -5.589541E-03, 4.200357E-03, 1.683022E-03, -3.260890E-03, 9.877953E-04, 1.039469E-03, -1.029790E-03, 9.636700E-05, 3.889716E-04, -2.549600E-04, -1.447330E-05, 1.062617E-04, -4.839846E-05, -1.602083E-05, 1.894882E-05, 1.011647E-05, -1.748613E-05, -9.139663E-06, 3.599532E-05, -2.682181E-05, -1.621039E-05, 5.379153E-05, 0.000000E+00, 0.000000E+00, 1.305413E-04, 7.405708E-04, 1.399973E-03, 4.486837E-04, -1.781394E-03, -1.603118E-03, 1.109988E-03, 1.266439E-03, -8.494465E-04, -3.990303E-04, 6.742676E-04, -2.599812E-04, -2.382689E-04, 3.297796E-04, -6.785656E-05, -1.420403E-04, 1.261177E-04, -1.110460E-05, -5.750791E-05, 5.173467E-05, -1.042176E-05, -2.626563E-05, 3.535199E-05, -1.379535E-05, -1.947900E-05, 3.544505E-05, -1.967741E-05, -1.401624E-05, 0.000000E+00, 0.000000E+00, 0.000000E+00],
  [3.349029E-04, 1.120965E-03, -1.325724E-04, -5.081831E-03, -6.228115E-03, 1.793704E-03, 5.800062E-03, -1.558418E-03, -3.674198E-03, 2.323884E-03, 1.084238E-03, -1.997309E-03, 6.935205E-04, 5.589725E-04, -6.669636E-04, 1.510920E-04, 1.979897E-04, -1.892580E-04, 4.199454E-05, 5.167989E-05, -5.993880E-05, 2.545927E-05, 1.397344E-05, -3.674326E-05, 2.980710E-05, 4.125969E-06, -3.996718E-05, 4.584442E-05, -1.172954E-05, 0.000000E+00, 0.000000E+00, -1.096988E-04, -1.964659E-04, 2.796961E-04, 1.295146E-03, 1.195977E-03, -5.998221E-04, -1.243115E-03, 3.924650E-04, 8.366184E-04, -4.505695E-04, -2.599812E-04, 4.141924E-04, -1.665839E-04, -1.344743E-04, 2.046415E-04, -5.610726E-05, -7.985916E-05, 7.773566E-05, -4.888469E-06, -3.415674E-05, 1.755629E-05, 1.075855E-05, -1.297079E-05, -6.265323E-06, 1.838849E-05, -8.010834E-06, -1.313275E-05, 2.303151E-05, 0.000000E+00, 0.000000E+00, 0.000000E+00],
  [-8.683981E-05, 3.464165E-04, 2.181682E-03, 3.021612E-03, -8.676061E-04, -4.491381E-03, -4.370022E-04, 3.642212E-03, -3.334261E-04, -2.340405E-03, 1.292815E-03, 6.831503E-04, -1.218054E-03, 4.838658E-04, 2.826767E-04, -4.188741E-04, 1.429170E-04, 9.307501E-05, -1.193171E-04, 3.348419E-05, 2.925918E-05, -2.559475E-05, -7.772341E-06, 2.098548E-05, -4.795027E-07, -2.770316E-05, 3.049154E-05, -1.427445E-06, -3.453689E-05, 0.000000E+00, 0.000000E+00, -1.326080E-05, -2.050003E-04, -6.119349E-04, -6.013047E-04, 3.252404E-04, 9.167385E-04, -3.942441E-05, -8.012700E-04, 8.522423E-05, 5.267111E-04, -2.382689E-04, -1.665839E-04, 2.491785E-04, -1.069505E-04, -6.559794E-05, 1.196432E-04, -5.279184E-05, -2.664003E-05, 4.831533E-05, -2.648698E-05, -1.334892E-06, 1.802716E-05, -2.070823E-05, 9.822642E-06, 7.810364E-06, -1.900564E-05, 1.497035E-05, 3.318925E-07, 0.000000E+00, 0.000000E+00, 0.000000E+00],
  [-9.207758E-05, -5.072939E-04, -7.296943E-04, 8.779148E-04, 3.043441E-03, 1.214703E-03, -2.570421E-03, -1.094573E-03, 2.162554E-03, 1.070936E-04, -1.499006E-03, 7.571223E-04, 4.429929E-04, -7.766797E-04, 3.396216E-04, 1.457142E-04, -2.658665E-04, 1.213545E-04, 2.803769E-05, -7.024829E-05, 4.442571E-05, -1.160500E-05, -9.445217E-06, 2.240847E-05, -2.453103E-05, 9.477966E-06, 1.618932E-05, -3.252328E-05, 2.389564E-05, 0.000000E+00, 0.000000E+00, 4.574022E-05, 1.416453E-04, 1.044076E-04, -3.030448E-04, -6.343914E-04, -1.214403E-04, 5.750309E-04, 1.618359E-04, -4.833885E-04, -2.648623E-05, 3.297796E-04, -1.344743E-04, -1.069505E-04, 1.617647E-04, -7.494733E-05, -4.025900E-05, 8.339042E-05, -3.928348E-05, -2.279747E-05, 3.968381E-05, -1.296667E-05, -1.598390E-05, 1.880522E-05, -1.246108E-06, -1.392566E-05, 1.296263E-05, -1.436866E-07, -1.169956E-05, 0.000000E+00, 0.000000E+00, 0.000000E+00],
  [7.162390E-05, 6.601236E-05, -5.557593E-04, -1.616943E-03, -1.031068E-03, 1.431168E-03, 1.559746E-03, -1.176281E-03, -1.098693E-03, 1.190608E-03, 2.770137E-04, -9.340888E-04, 4.070945E-04, 2.907872E-04, -4.741829E-04, 2.230623E-04, 6.775237E-05, -1.619072E-04, 9.039905E-05, 8.945156E-06, -4.999015E-05, 3.146729E-05, 5.626299E-06, -2.386541E-05, 1.256812E-05, 1.236479E-05, -2.603955E-05, 1.579111E-05, 1.000193E-05, 0.000000E+00, 0.000000E+00, -1.422595E-05, 2.383074E-05, 2.039974E-04, 3.777819E-04, 1.446588E-04, -3.405307E-04, -2.556440E-04, 2.903018E-04, 2.015937E-04, -2.695226E-04, -6.785656E-05, 2.046415E-04, -6.559794E-05, -7.494733E-05, 9.642891E-05, -3.989354E-05, -2.157141E-05, 4.060392E-05, -2.076836E-05, -3.068187E-06, 1.019412E-05, -6.716588E-06, 3.964671E-06, -3.233421E-06, 8.006512E-07, 3.607619E-06, -6.773444E-06, 6.099501E-06, 0.000000E+00, 0.000000E+00, 0.000000E+00],
  [8.964816E-06, 1.663004E-04, 5.275352E-04, 3.698555E-04, -8.219163E-04, -1.270857E-03, 3.686976E-04, 1.186930E-03, -4.509039E-04, -7.985835E-04, 6.535389E-04, 2.234414E-04, -5.784604E-04, 2.604567E-04, 1.704026E-04, -3.066155E-04, 1.650270E-04, 2.311258E-05, -9.713913E-05, 6.410030E-05, -9.807767E-06, -1.328323E-05, 1.135598E-05, -8.732351E-06, 1.225622E-05, -1.203402E-05, 9.191006E-07, 1.489619E-05, -2.221529E-05, 0.000000E+00, 0.000000E+00, -1.244366E-05, -6.613584E-05, -1.303102E-04, -4.211011E-05, 2.049609E-04, 2.180310E-04, -1.267259E-04, -2.177376E-04, 1.248219E-04, 1.575184E-04, -1.420403E-04, -5.610726E-05, 1.196432E-04, -4.025900E-05, -3.989354E-05, 6.127276E-05, -3.601400E-05, -5.646260E-06, 3.132144E-05, -2.579185E-05, 2.011763E-06, 1.567799E-05, -1.540234E-05, 3.444584E-06, 7.381115E-06, -9.996630E-06, 5.454509E-06, 1.664122E-06, 0.000000E+00, 0.000000E+00, 0.000000E+00],
  [-4.435724E-05, -1.026809E-04, -1.299368E-05, 5.268542E-04, 9.242321E-04, 5.482330E-05, -9.852436E-04, -1.636726E-04, 8.623493E-04, -8.034730E-05, -6.253850E-04, 3.570145E-04, 2.283401E-04, -3.899219E-04, 1.411990E-04, 1.322306E-04, -2.020683E-04, 1.073254E-04, 9.826671E-06, -6.267766E-05, 5.223727E-05, -1.698901E-05, -1.279935E-05, 2.492638E-05, -1.876438E-05, 1.209178E-06, 1.564279E-05, -2.039752E-05, 9.708276E-06, 0.000000E+00, 0.000000E+00, 1.426551E-05, 2.143324E-05, -2.678904E-05, -1.488778E-04, -1.771664E-04, 3.546624E-05, 1.914226E-04, -1.025017E-05, -1.696440E-04, 4.137537E-05, 1.261177E-04, -7.985916E-05, -5.279184E-05, 8.339042E-05, -2.157141E-05, -3.601400E-05, 4.467425E-05, -1.778262E-05, -1.161561E-05, 2.027519E-05, -9.167875E-06, -4.694776E-06, 8.430662E-06, -2.746908E-06, -4.127278E-06, 5.814094E-06, -1.607818E-06, -4.650408E-06, 0.000000E+00, 0.000000E+00, 0.000000E+00]]

/-- `Daejeon16_public_v2.f90` 804-817. -/
def coup3gi_4 : List (List Num) := [
  [2.531270E-05, -2.721661E-05, -2.192431E-04, -4.334776E-04, -1.740163E-04, 5.024957E-04, 4.248393E-04, -4.235457E-04, -3.349245E-04, 4.263818E-04, 9.931265E-05, -3.624759E-04, 1.398951E-04, 1.547256E-04, -2.113531E-04, 7.465403E-05, 7.176742E-05, -1.174986E-04, 7.082114E-05, -1.240266E-06, -3.466483E-05, 2.844343E-05, -5.642784E-06, -7.866782E-06, 5.446620E-06, 3.585994E-06, -7.609951E-06, 2.525150E-06, 7.153201E-06, 0.000000E+00, 0.000000E+00, -3.587380E-06, 1.843040E-05, 7.099626E-05, 9.785770E-05, 1.239399E-05, -1.102424E-04, -5.689057E-05, 9.651246E-05, 4.587551E-05, -9.261457E-05, -1.110460E-05, 7.773566E-05, -2.664003E-05, -3.928348E-05, 4.060392E-05, -5.646260E-06, -1.778262E-05, 1.999230E-05, -1.130591E-05, 5.126789E-07, 6.793744E-06, -7.696624E-06, 3.912543E-06, 5.699536E-08, -1.699482E-06, 2.033257E-06, -2.647837E-06, 2.947643E-06, 0.000000E+00, 0.000000E+00, 0.000000E+00],
  [1.234945E-05, 8.260069E-05, 1.254430E-04, -3.883750E-05, -3.554782E-04, -2.963257E-04, 2.509695E-04, 3.393177E-04, -2.416948E-04, -2.420266E-04, 2.809293E-04, 6.454184E-05, -2.496836E-04, 1.105718E-04, 1.005255E-04, -1.564322E-04, 6.432508E-05, 4.544176E-05, -8.420859E-05, 5.615532E-05, -1.098956E-05, -1.576225E-05, 2.082872E-05, -1.616569E-05, 9.760852E-06, -2.136318E-06, -6.949402E-06, 1.388449E-05, -1.346233E-05, 0.000000E+00, 0.000000E+00, -6.098240E-06, -2.412845E-05, -2.597774E-05, 2.307908E-05, 8.020274E-05, 4.084657E-05, -6.194806E-05, -4.854164E-05, 5.629941E-05, 3.241304E-05, -5.750791E-05, -4.888469E-06, 4.831533E-05, -2.279747E-05, -2.076836E-05, 3.132144E-05, -1.161561E-05, -1.130591E-05, 1.991342E-05, -1.300117E-05, -2.837019E-07, 9.344927E-06, -9.525365E-06, 3.342874E-06, 3.563878E-06, -6.719903E-06, 4.739845E-06, 5.497406E-07, 0.000000E+00, 0.000000E+00, 0.000000E+00],
  [-3.317355E-05, -5.982528E-05, 1.759005E-05, 2.611963E-04, 3.760529E-04, -1.430174E-05, -4.160700E-04, -6.755909E-05, 3.651234E-04, -8.917124E-06, -2.860828E-04, 1.262001E-04, 1.460513E-04, -1.770856E-04, 1.917924E-05, 1.041957E-04, -9.889429E-05, 2.201866E-05, 4.170622E-05, -5.711508E-05, 3.612982E-05, -5.801900E-06, -1.476376E-05, 2.006757E-05, -1.348676E-05, 1.463187E-06, 9.295989E-06, -1.320372E-05, 8.028897E-06, 0.000000E+00, 0.000000E+00, 9.034635E-06, 1.175458E-05, -1.654361E-05, -7.056551E-05, -7.141786E-05, 2.311741E-05, 7.867113E-05, -8.479543E-06, -6.800394E-05, 1.858061E-05, 5.173467E-05, -3.415674E-05, -2.648698E-05, 3.968381E-05, -3.068187E-06, -2.579185E-05, 2.027519E-05, 5.126789E-07, -1.300117E-05, 1.207864E-05, -4.189419E-06, -3.442485E-06, 6.339991E-06, -3.578543E-06, -1.773209E-06, 4.737869E-06, -2.699844E-06, -2.225643E-06, 0.000000E+00, 0.000000E+00, 0.000000E+00],
  [2.274657E-05, -9.260286E-07, -5.671023E-05, -1.216009E-04, -9.838587E-05, 7.650651E-05, 1.396411E-04, -5.902342E-05, -1.179509E-04, 8.059658E-05, 6.379304E-05, -9.656083E-05, 9.186054E-06, 6.806291E-05, -6.001088E-05, -1.345118E-07, 4.477227E-05, -4.371587E-05, 1.252651E-05, 1.778739E-05, -2.841779E-05, 2.028562E-05, -5.589978E-06, -4.462164E-06, 6.309513E-06, -3.128903E-06, 2.664624E-08, 1.640648E-07, 1.859125E-06, 0.000000E+00, 0.000000E+00, -4.778189E-06, 2.363021E-06, 1.875507E-05, 2.999653E-05, 1.521537E-05, -2.070806E-05, -2.343102E-05, 1.568191E-05, 1.968467E-05, -1.655451E-05, -1.042176E-05, 1.755629E-05, -1.334892E-06, -1.296667E-05, 1.019412E-05, 2.011763E-06, -9.167875E-06, 6.793744E-06, -2.837019E-07, -4.189419E-06, 4.713846E-06, -2.790961E-06, 6.714106E-07, 4.892618E-07, -9.095947E-07, 1.216933E-06, -1.466027E-06, 1.171630E-06, 0.000000E+00, 0.000000E+00, 0.000000E+00],
  [7.573707E-06, 6.322560E-05, 3.340307E-05, -1.210072E-04, -1.922297E-04, -1.632182E-05, 1.882973E-04, 7.154123E-05, -1.588344E-04, -4.800598E-05, 1.389795E-04, -5.936728E-06, -1.050473E-04, 5.672568E-05, 4.490897E-05, -7.082447E-05, 2.053013E-05, 3.262682E-05, -4.324093E-05, 1.965885E-05, 8.410245E-06, -2.191829E-05, 2.011417E-05, -1.149142E-05, 3.043809E-06, 3.420630E-06, -8.333984E-06, 1.070734E-05, -8.324329E-06, 0.000000E+00, 0.000000E+00, -3.343241E-06, -1.403492E-05, -2.853455E-06, 3.274367E-05, 3.874993E-05, -7.323154E-06, -3.764366E-05, -4.578700E-07, 3.188292E-05, -3.636722E-06, -2.626563E-05, 1.075855E-05, 1.802716E-05, -1.598390E-05, -6.716588E-06, 1.567799E-05, -4.694776E-06, -7.696624E-06, 9.344927E-06, -3.442485E-06, -2.790961E-06, 5.993747E-06, -5.650101E-06, 2.187931E-06, 2.485699E-06, -5.157540E-06, 3.773104E-06, 4.663077E-07, 0.000000E+00, 0.000000E+00, 0.000000E+00],
  [-3.116202E-05, -9.237675E-05, -2.925901E-05, 1.929931E-04, 2.954800E-04, 3.388871E-05, -2.653504E-04, -9.021931E-05, 2.170938E-04, 4.275050E-05, -1.756087E-04, 3.273301E-05, 1.105621E-04, -8.315396E-05, -2.438694E-05, 7.357415E-05, -3.990839E-05, -1.567148E-05, 3.992932E-05, -2.784826E-05, 3.202957E-06, 1.355533E-05, -1.771871E-05, 1.403023E-05, -7.337804E-06, -2.327892E-07, 7.061593E-06, -1.042215E-05, 8.004218E-06, 0.000000E+00, 0.000000E+00, 9.271531E-06, 2.080566E-05, -7.242515E-07, -5.229616E-05, -5.973351E-05, 8.961354E-06, 5.583036E-05, 2.354036E-06, -4.617103E-05, 3.125958E-06, 3.535199E-05, -1.297079E-05, -2.070823E-05, 1.880522E-05, 3.964671E-06, -1.540234E-05, 8.430662E-06, 3.912543E-06, -9.525365E-06, 6.339991E-06, 6.714106E-07, -5.650101E-06, 5.811382E-06, -2.134909E-06, -2.196332E-06, 4.135034E-06, -2.647590E-06, -7.966575E-07, 0.000000E+00, 0.000000E+00, 0.000000E+00],
  [2.773666E-05, 6.193945E-05, 4.573315E-05, -4.325540E-05, -1.459682E-04, -1.121973E-04, 6.808297E-05, 1.071782E-04, -5.297172E-05, -6.731726E-05, 5.705632E-05, 1.822546E-05, -4.588983E-05, 1.989007E-05, 1.380103E-05, -2.567833E-05, 1.455810E-05, 3.687124E-06, -1.328746E-05, 1.114644E-05, -4.203141E-06, -1.265885E-06, 4.209071E-06, -5.680414E-06, 5.738311E-06, -3.978984E-06, 1.041291E-06, 1.547566E-06, -2.622132E-06, 0.000000E+00, 0.000000E+00, -7.926507E-06, -1.650872E-05, -9.826847E-06, 1.522793E-05, 3.392154E-05, 1.600738E-05, -2.165594E-05, -1.953946E-05, 1.636320E-05, 1.465977E-05, -1.379535E-05, -6.265323E-06, 9.822642E-06, -1.246108E-06, -3.233421E-06, 3.444584E-06, -2.746908E-06, 5.699536E-08, 3.342874E-06, -3.578543E-06, 4.892618E-07, 2.187931E-06, -2.134909E-06, 6.018513E-07, 2.974644E-07, -1.674314E-07, -1.105671E-07, 3.643235E-08, 0.000000E+00, 0.000000E+00, 0.000000E+00],
  [-3.030542E-07, 2.016541E-05, -2.453920E-05, -1.564790E-04, -1.454803E-04, 9.783167E-05, 1.933000E-04, -4.130290E-05, -1.520776E-04, 4.373263E-05, 9.596280E-05, -5.539970E-05, -4.053097E-05, 5.023553E-05, 2.975260E-07, -2.967717E-05, 1.705948E-05, 7.174019E-06, -1.588365E-05, 7.846104E-06, 3.786895E-06, -9.028507E-06, 7.131778E-06, -2.277228E-06, -2.188738E-06, 5.386451E-06, -7.214685E-06, 6.878909E-06, -3.517439E-06, 0.000000E+00, 0.000000E+00, -3.142259E-07, -1.380317E-06, 1.321986E-05, 3.817494E-05, 2.414085E-05, -2.895918E-05, -3.411308E-05, 2.125600E-05, 2.952546E-05, -1.979731E-05, -1.947900E-05, 1.838849E-05, 7.810364E-06, -1.392566E-05, 8.006512E-07, 7.381115E-06, -4.127278E-06, -1.699482E-06, 3.563878E-06, -1.773209E-06, -9.095947E-07, 2.485699E-06, -2.196332E-06, 2.974644E-07, 2.019482E-06, -3.091879E-06, 1.956167E-06, 6.560106E-07, 0.000000E+00, 0.000000E+00, 0.000000E+00],
  [-2.738975E-05, -1.018640E-04, -5.698375E-05, 1.961687E-04, 3.414025E-04, 6.143146E-05, -2.739664E-04, -1.037044E-04, 2.073031E-04, 4.931418E-05, -1.557974E-04, 2.039834E-05, 9.278686E-05, -6.059102E-05, -2.431593E-05, 5.484998E-05, -2.246348E-05, -1.895850E-05, 2.918856E-05, -1.195801E-05, -7.241142E-06, 1.311540E-05, -8.634800E-06, 2.809379E-06, 5.804579E-07, -3.108403E-06, 6.170427E-06, -8.183964E-06, 6.508751E-06, 0.000000E+00, 0.000000E+00, 9.078365E-06, 2.359610E-05, 4.844319E-06, -5.426834E-05, -7.052669E-05, 4.836994E-06, 6.260107E-05, 6.723292E-06, -4.969730E-05, -1.455413E-06, 3.544505E-05, -8.010834E-06, -1.900564E-05, 1.296263E-05, 3.607619E-06, -9.996630E-06, 5.814094E-06, 2.033257E-06, -6.719903E-06, 4.737869E-06, 1.216933E-06, -5.157540E-06, 4.135034E-06, -1.674314E-07, -3.091879E-06, 3.727956E-06, -2.027045E-06, -6.361142E-07, 0.000000E+00, 0.000000E+00, 0.000000E+00],
  [3.124814E-05, 1.188520E-04, 1.371426E-04, -2.671482E-05, -2.553907E-04, -2.281025E-04, 9.704712E-05, 2.052783E-04, -6.740973E-05, -1.346883E-04, 8.093218E-05, 5.531617E-05, -7.747981E-05, 1.001774E-05, 4.285282E-05, -3.758050E-05, 5.781234E-07, 2.446310E-05, -2.051946E-05, 1.772526E-06, 1.068465E-05, -9.814709E-06, 2.711701E-06, 1.741537E-06, -1.412955E-06, -2.224406E-07, -2.514749E-07, 2.811536E-06, -4.872404E-06, 0.000000E+00, 0.000000E+00, -1.087599E-05, -3.279948E-05, -3.190356E-05, 1.508275E-05, 6.194250E-05, 3.717246E-05, -3.531651E-05, -4.047509E-05, 2.376952E-05, 2.917281E-05, -1.967741E-05, -1.313275E-05, 1.497035E-05, -1.436866E-07, -6.773444E-06, 5.454509E-06, -1.607818E-06, -2.647837E-06, 4.739845E-06, -2.699844E-06, -1.466027E-06, 3.773104E-06, -2.647590E-06, -1.105671E-07, 1.956167E-06, -2.027045E-06, 1.082324E-06, -4.084070E-08, 0.000000E+00, 0.000000E+00, 0.000000E+00],
  [-7.552591E-06, -4.795362E-05, -1.219095E-04, -1.953654E-04, -7.492782E-05, 2.143771E-04, 1.894334E-04, -1.444480E-04, -1.437372E-04, 1.196211E-04, 6.206203E-05, -9.500128E-05, 6.268105E-06, 5.144931E-05, -3.516452E-05, -5.848334E-06, 2.452642E-05, -1.543990E-05, -1.441532E-06, 9.761561E-06, -7.788693E-06, 1.646676E-06, 3.230587E-06, -4.523081E-06, 2.301152E-06, 1.553572E-06, -4.188395E-06, 3.531871E-06, 1.853430E-07, 0.000000E+00, 0.000000E+00, 3.523395E-06, 1.802145E-05, 3.883713E-05, 4.481813E-05, 3.910613E-06, -5.242503E-05, -2.920604E-05, 4.209653E-05, 2.748615E-05, -3.281887E-05, -1.401624E-05, 2.303151E-05, 3.318925E-07, -1.169956E-05, 6.099501E-06, 1.664122E-06, -4.650408E-06, 2.947643E-06, 5.497406E-07, -2.225643E-06, 1.171630E-06, 4.663077E-07, -7.966575E-07, 3.643235E-08, 6.560106E-07, -6.361142E-07, -4.084070E-08, 9.191150E-07, 0.000000E+00, 0.000000E+00, 0.000000E+00],
  [0.000000E+00, 0.000000E+00, 0.000000E+00, 0.000000E+00, 0.000000E+00, 0.000000E+00, 0.000000E+00, 0.000000E+00, 0.000000E+00, 0.000000E+00, 0.000000E+00, 0.000000E+00, 0.000000E+00, 0.000000E+00, 0.000000E+00, 0.000000E+00, 0.000000E+00, 0.000000E+00, 0.000000E+00, 0.000000E+00, 0.000000E+00, 0.000000E+00, 0.000000E+00, 0.000000E+00, 0.000000E+00, 0.000000E+00, 0.000000E+00, 0.000000E+00, 0.000000E+00, 0.000000E+00, 0.000000E+00, 0.000000E+00, 0.000000E+00, 0.000000E+00, 0.000000E+00, 0.000000E+00, 0.000000E+00, 0.000000E+00, 0.000000E+00, 0.000000E+00, 0.000000E+00, 0.000000E+00, 0.000000E+00, 0.000000E+00, 0.000000E+00, 0.000000E+00, 0.000000E+00, 0.000000E+00, 0.000000E+00, 0.000000E+00, 0.000000E+00, 0.000000E+00, 0.000000E+00, 0.000000E+00, 0.000000E+00, 0.000000E+00, 0.000000E+00, 0.000000E+00, 0.000000E+00, 0.000000E+00, 0.000000E+00, 0.000000E+00],
  [0.000000E+00, 0.000000E+00, 0.000000E+00, 0.000000E+00, 0.000000E+00, 0.000000E+00, 0.000000E+00, 0.000000E+00, 0.000000E+00, 0.000000E+00, 0.000000E+00, 0.000000E+00, 0.000000E+00, 0.000000E+00, 0.000000E+00, 0.000000E+00, 0.000000E+00, 0.000000E+00, 0.000000E+00, 0.000000E+00, 0.000000E+00, 0.000000E+00, 0.000000E+00, 0.000000E+00, 0.000000E+00, 0.000000E+00, 0.000000E+00, 0.000000E+00, 0.000000E+00, 0.000000E+00, 0.000000E+00, 0.000000E+00, 0.000000E+00, 0.000000E+00, 0.000000E+00, 0.000000E+00, 0.000000E+00, 0.000000E+00, 0.000000E+00, 0.000000E+00, 0.000000E+00, 0.000000E+00, 0.000000E+00, 0.000000E+00, 0.000000E+00, 0.000000E+00, 0.000000E+00, 0.000000E+00, 0.000000E+00, 0.000000E+00, 0.000000E+00, 0.000000E+00, 0.000000E+00, 0.000000E+00, 0.000000E+00, 0.000000E+00, 0.000000E+00, 0.000000E+00, 0.000000E+00, 0.000000E+00, 0.000000E+00, 0.000000E+00],
  [0.000000E+00, 0.000000E+00, 0.000000E+00, 0.000000E+00, 0.000000E+00, 0.000000E+00, 0.000000E+00, 0.000000E+00, 0.000000E+00, 0.000000E+00, 0.000000E+00, 0.000000E+00, 0.000000E+00, 0.000000E+00, 0.000000E+00, 0.000000E+00, 0.000000E+00, 0.000000E+00, 0.000000E+00, 0.000000E+00, 0.000000E+00, 0.000000E+00, 0.000000E+00, 0.000000E+00, 0.000000E+00, 0.000000E+00, 0.000000E+00, 0.000000E+00, 0.000000E+00, 0.000000E+00, 0.000000E+00, 0.000000E+00, 0.000000E+00, 0.000000E+00, 0.000000E+00, 0.000000E+00, 0.000000E+00, 0.000000E+00, 0.000000E+00, 0.000000E+00, 0.000000E+00, 0.000000E+00, 0.000000E+00, 0.000000E+00, 0.000000E+00, 0.000000E+00, 0.000000E+00, 0.000000E+00, 0.000000E+00, 0.000000E+00, 0.000000E+00, 0.000000E+00, 0.000000E+00, 0.000000E+00, 0.000000E+00, 0.000000E+00, 0.000000E+00, 0.000000E+00, 0.000000E+00, 0.000000E+00, 0.000000E+00, 0.000000E+00]]

/-- `Daejeon16_public_v2.f90` 755-818. -/
def coup3gi : List (List Num) := coup3gi_1 ++ coup3gi_2 ++ coup3gi_3 ++ coup3gi_4

end Verif.Daejeon
