import Verif.Daejeon.Number

/-!
# Tables of Daejeon16: unc1s0, unc3p0, unc1p1, unc3p1, unc1d2, unc3d2, unc1f3

The `data` statements of `contrib/Daejeon16/Daejeon16_public_v2.f90`, line by line; a line of the source is a row here.
-/

namespace Verif.Daejeon

/-- `Daejeon16_public_v2.f90` 37-69. -/
def unc1s0 : List (List Num) := [
  [-1.167044E+01, -6.644545E+00, -1.636675E+00, 8.466527E-01, 2.310531E-01, -1.206431E-01, -4.143672E-02, 2.759827E-02, 4.491376E-03, -7.219055E-03, 9.564293E-04, 1.457271E-03, -8.217218E-04, -1.649050E-06, 2.146421E-04, -1.327191E-04, 4.655465E-05, -3.864936E-06, -2.740436E-05, 5.074718E-05, -4.803302E-05, 1.679634E-05, 2.136984E-05, -4.109687E-05, 3.437982E-05, -1.300738E-05, -5.437787E-06, 1.244913E-05, -1.196014E-05, 1.235522E-05, -1.668331E-05],
  [-6.644545E+00, -3.759662E+00, -1.299886E+00, 1.498107E+00, 1.567570E+00, 4.323642E-01, -1.551424E-01, -7.684412E-02, 3.916804E-02, 1.120868E-02, -1.279242E-02, 1.834745E-04, 3.417642E-03, -1.163857E-03, -4.567276E-04, 4.714147E-04, -1.179882E-04, 7.426947E-06, -3.511871E-05, 9.502588E-06, 8.762061E-05, -1.652597E-04, 1.454530E-04, -2.466233E-05, -1.283855E-04, 2.170117E-04, -1.798663E-04, 3.665061E-05, 1.201565E-04, -1.890827E-04, 1.338353E-04],
  [-1.636675E+00, -1.299886E+00, -1.762144E-01, 2.555634E+00, 3.761060E+00, 2.374202E+00, 4.274742E-01, -2.714809E-01, -7.099863E-02, 6.149509E-02, -2.355832E-03, -1.927417E-02, 7.162423E-03, 4.281897E-03, -3.608586E-03, -1.879567E-04, 1.075931E-03, -1.480897E-04, -3.872636E-04, 1.333387E-04, 2.644633E-04, -3.462226E-04, 1.455556E-04, 1.078905E-04, -2.670992E-04, 2.966786E-04, -1.935569E-04, -2.322852E-05, 2.607089E-04, -3.630134E-04, 2.296843E-04],
  [8.466527E-01, 1.498107E+00, 2.555634E+00, 4.969651E+00, 7.049187E+00, 6.187650E+00, 2.903936E+00, 2.338829E-01, -3.770875E-01, -5.750153E-02, 4.440143E-02, -2.108786E-02, -4.706751E-03, 1.598208E-02, -2.958426E-03, -6.131510E-03, 3.080052E-03, 1.535564E-03, -1.846789E-03, -4.792922E-05, 1.023486E-03, -4.943346E-04, -3.809610E-04, 5.881640E-04, -1.556646E-04, -2.543903E-04, 2.335107E-04, 1.360749E-05, -7.894932E-05, -9.712759E-05, 2.058785E-04],
  [2.310531E-01, 1.567570E+00, 3.761060E+00, 7.049187E+00, 1.043155E+01, 1.124401E+01, 7.942609E+00, 2.922633E+00, -1.379701E-01, -5.466244E-01, -1.102860E-01, 2.791712E-02, 1.152973E-02, 2.132700E-02, 1.420851E-03, -1.512168E-02, 1.902433E-03, 6.921555E-03, -3.219210E-03, -2.178137E-03, 2.800965E-03, -1.779006E-04, -1.922539E-03, 1.550229E-03, 4.533608E-04, -1.778669E-03, 1.101422E-03, 6.192424E-04, -1.403939E-03, 5.840136E-04, 5.893618E-04],
  [-1.206431E-01, 4.323642E-01, 2.374202E+00, 6.187650E+00, 1.124401E+01, 1.496270E+01, 1.409057E+01, 8.463735E+00, 2.183115E+00, -8.539094E-01, -8.211725E-01, -9.812248E-02, 1.325546E-01, 6.949541E-02, -7.436797E-03, -3.110161E-02, -2.275417E-03, 1.500185E-02, -1.712202E-03, -6.648614E-03, 3.947015E-03, 1.398132E-03, -3.872594E-03, 2.348536E-03, 1.579684E-03, -4.039200E-03, 2.061177E-03, 2.470524E-03, -4.253352E-03, 9.436500E-04, 3.509689E-03],
  [-4.143672E-02, -1.551424E-01, 4.274742E-01, 2.903936E+00, 7.942609E+00, 1.409057E+01, 1.744217E+01, 1.465340E+01, 7.158257E+00, 4.767208E-01, -1.744145E+00, -8.327128E-01, 1.913307E-01, 2.743913E-01, 1.220755E-02, -7.981345E-02, -1.657615E-02, 2.777678E-02, 5.596234E-03, -1.175132E-02, 1.227063E-03, 3.784364E-03, -3.547019E-03, 2.177364E-03, 1.599352E-03, -5.872789E-03, 4.017671E-03, 4.536964E-03, -9.770963E-03, 2.977026E-03, 9.866581E-03],
  [2.759827E-02, -7.684412E-02, -2.714809E-01, 2.338829E-01, 2.922633E+00, 8.463735E+00, 1.465340E+01, 1.682229E+01, 1.225394E+01, 4.089661E+00, -1.479307E+00, -2.005671E+00, -2.783212E-01, 5.355869E-01, 1.978455E-01, -1.348769E-01, -7.713339E-02, 3.938679E-02, 2.701701E-02, -1.433491E-02, -8.617157E-03, 4.869216E-03, 2.548692E-03, 1.073461E-03, -3.379056E-03, -4.290631E-03, 9.603632E-03, 5.409881E-04, -1.599994E-02, 1.347643E-02, 1.044648E-02],
  [4.491376E-03, 3.916804E-02, -7.099863E-02, -3.770875E-01, -1.379701E-01, 2.183115E+00, 7.158257E+00, 1.225394E+01, 1.296642E+01, 7.778088E+00, 8.699746E-01, -2.336607E+00, -1.309621E+00, 3.839570E-01, 5.286235E-01, -4.689319E-02, -1.819106E-01, 7.523359E-03, 6.411414E-02, -3.773749E-03, -2.592053E-02, 2.132110E-03, 1.478997E-02, -1.620136E-03, -1.391983E-02, 5.040879E-03, 1.594789E-02, -1.567128E-02, -1.164499E-02, 3.087530E-02, -1.031837E-02],
  [-7.219055E-03, 1.120868E-02, 6.149509E-02, -5.750153E-02, -5.466244E-01, -8.539094E-01, 4.767208E-01, 4.089661E+00, 7.778088E+00, 7.851974E+00, 3.689284E+00, -7.950711E-01, -1.883193E+00, -3.984304E-01, 5.953251E-01, 2.470518E-01, -1.912162E-01, -9.479553E-02, 7.353575E-02, 2.998509E-02, -3.597362E-02, -5.984790E-03, 2.388848E-02, -6.482345E-03, -1.909972E-02, 1.942606E-02, 9.793569E-03, -3.207371E-02, 1.258402E-02, 3.108496E-02, -4.323307E-02],
  [9.564293E-04, -1.279242E-02, -2.355832E-03, 4.440143E-02, -1.102860E-01, -8.211725E-01, -1.744145E+00, -1.479307E+00, 8.699746E-01, 3.689284E+00, 4.027555E+00, 1.475040E+00, -9.939350E-01, -1.080679E+00, 7.779689E-02, 4.433437E-01, 1.903973E-02, -1.648789E-01, -4.576243E-04, 5.823981E-02, -1.159827E-02, -1.426492E-02, 1.255327E-02, -8.159106E-03, -4.942762E-03, 2.130772E-02, -1.295080E-02, -2.070367E-02, 3.653030E-02, -4.233328E-03, -4.386891E-02],
  [1.457271E-03, 1.834745E-04, -1.927417E-02, -2.108786E-02, 2.791712E-02, -9.812248E-02, -8.327128E-01, -2.005671E+00, -2.336607E+00, -7.950711E-01, 1.475040E+00, 2.079758E+00, 6.249659E-01, -7.347277E-01, -5.501584E-01, 1.905360E-01, 2.564982E-01, -5.965622E-02, -1.008405E-01, 2.558472E-02, 3.724796E-02, -9.011543E-03, -1.774168E-02, -2.888594E-04, 1.899222E-02, -1.319262E-03, -2.628671E-02, 1.747674E-02, 2.294847E-02, -4.076632E-02, 5.268502E-03],
  [-8.217218E-04, 3.417642E-03, 7.162423E-03, -4.706751E-03, 1.152973E-02, 1.325546E-01, 1.913307E-01, -2.783212E-01, -1.309621E+00, -1.883193E+00, -9.939350E-01, 6.249659E-01, 1.154115E+00, 2.718565E-01, -4.956496E-01, -2.619224E-01, 1.849664E-01, 1.276961E-01, -8.093200E-02, -4.728405E-02, 4.402995E-02, 1.034968E-02, -2.885254E-02, 8.511111E-03, 2.002704E-02, -2.345943E-02, -6.121015E-03, 3.363572E-02, -1.920554E-02, -2.538287E-02, 4.482372E-02],
  [-1.649050E-06, -1.163857E-03, 4.281897E-03, 1.598208E-02, 2.132700E-02, 6.949541E-02, 2.743913E-01, 5.355869E-01, 3.839570E-01, -3.984304E-01, -1.080679E+00, -7.347277E-01, 2.718565E-01, 6.429354E-01, 1.116052E-01, -3.082539E-01, -1.110683E-01, 1.316628E-01, 5.060554E-02, -5.495359E-02, -1.391205E-02, 1.719252E-02, 2.437978E-03, 3.548582E-03, -7.647440E-03, -1.083999E-02, 2.129459E-02, 1.688636E-03, -3.054440E-02, 2.212166E-02, 1.881054E-02],
  [2.146421E-04, -4.567276E-04, -3.608586E-03, -2.958426E-03, 1.420851E-03, -7.436797E-03, 1.220755E-02, 1.978455E-01, 5.286235E-01, 5.953251E-01, 7.779689E-02, -5.501584E-01, -4.956496E-01, 1.116052E-01, 3.684532E-01, 4.701534E-02, -1.911619E-01, -4.462237E-02, 9.372675E-02, 1.828571E-02, -4.878562E-02, -2.162982E-03, 2.966666E-02, -6.948689E-03, -2.199490E-02, 1.683814E-02, 1.393753E-02, -2.769323E-02, 3.568763E-03, 2.881807E-02, -2.714125E-02],
  [-1.327191E-04, 4.714147E-04, -1.879567E-04, -6.131510E-03, -1.512168E-02, -3.110161E-02, -7.981345E-02, -1.348769E-01, -4.689319E-02, 2.470518E-01, 4.433437E-01, 1.905360E-01, -2.619224E-01, -3.082539E-01, 4.701534E-02, 2.082375E-01, 1.486405E-02, -1.091300E-01, -9.757122E-03, 5.000767E-02, -2.489363E-03, -1.626918E-02, 6.002817E-03, -3.541586E-03, 1.046306E-04, 1.238818E-02, -1.255649E-02, -8.307928E-03, 2.324917E-02, -8.393351E-03, -2.006376E-02],
  [4.655465E-05, -1.179882E-04, 1.075931E-03, 3.080052E-03, 1.902433E-03, -2.275417E-03, -1.657615E-02, -7.713339E-02, -1.819106E-01, -1.912162E-01, 1.903973E-02, 2.564982E-01, 1.849664E-01, -1.110683E-01, -1.911619E-01, 1.486405E-02, 1.245498E-01, 7.146300E-03, -7.065009E-02, -3.432429E-03, 3.976628E-02, -1.978817E-03, -2.478751E-02, 6.068044E-03, 1.840230E-02, -1.196897E-02, -1.274505E-02, 1.946970E-02, 1.144231E-03, -2.144561E-02, 1.504508E-02],
  [-3.864936E-06, 7.426947E-06, -1.480897E-04, 1.535564E-03, 6.921555E-03, 1.500185E-02, 2.777678E-02, 3.938679E-02, 7.523359E-03, -9.479553E-02, -1.648789E-01, -5.965622E-02, 1.276961E-01, 1.316628E-01, -4.462237E-02, -1.091300E-01, 7.146300E-03, 6.646220E-02, -2.705608E-03, -3.359326E-02, 6.321849E-03, 1.163460E-02, -6.912931E-03, 2.461363E-03, 1.989901E-03, -9.205646E-03, 6.906556E-03, 7.118337E-03, -1.453126E-02, 3.251970E-03, 1.341769E-02],
  [-2.740436E-05, -3.511871E-05, -3.872636E-04, -1.846789E-03, -3.219210E-03, -1.712202E-03, 5.596234E-03, 2.701701E-02, 6.411414E-02, 7.353575E-02, -4.576243E-04, -1.008405E-01, -8.093200E-02, 5.060554E-02, 9.372675E-02, -9.757122E-03, -7.065009E-02, -2.705608E-03, 4.603330E-02, 1.591425E-03, -2.928871E-02, 1.984239E-03, 1.966061E-02, -5.419940E-03, -1.420857E-02, 9.601170E-03, 8.866965E-03, -1.378722E-02, -3.797358E-04, 1.372380E-02, -9.558821E-03],
  [5.074718E-05, 9.502588E-06, 1.333387E-04, -4.792922E-05, -2.178137E-03, -6.648614E-03, -1.175132E-02, -1.433491E-02, -3.773749E-03, 2.998509E-02, 5.823981E-02, 2.558472E-02, -4.728405E-02, -5.495359E-02, 1.828571E-02, 5.000767E-02, -3.432429E-03, -3.359326E-02, 1.591425E-03, 1.841155E-02, -3.573215E-03, -6.867060E-03, 3.956866E-03, -1.134563E-03, -1.136028E-03, 4.983299E-03, -3.869376E-03, -3.684099E-03, 7.798856E-03, -1.959423E-03, -6.749043E-03],
  [-4.803302E-05, 8.762061E-05, 2.644633E-04, 1.023486E-03, 2.800965E-03, 3.947015E-03, 1.227063E-03, -8.617157E-03, -2.592053E-02, -3.597362E-02, -1.159827E-02, 3.724796E-02, 4.402995E-02, -1.391205E-02, -4.878562E-02, -2.489363E-03, 3.976628E-02, 6.321849E-03, -2.928871E-02, -3.573215E-03, 2.121321E-02, -6.468424E-04, -1.546787E-02, 4.633953E-03, 1.079531E-02, -8.162706E-03, -5.490261E-03, 1.017502E-02, -1.191585E-03, -8.381316E-03, 7.044695E-03],
  [1.679634E-05, -1.652597E-04, -3.462226E-04, -4.943346E-04, -1.779006E-04, 1.398132E-03, 3.784364E-03, 4.869216E-03, 2.132110E-03, -5.984790E-03, -1.426492E-02, -9.011543E-03, 1.034968E-02, 1.719252E-02, -2.162982E-03, -1.626918E-02, -1.978817E-03, 1.163460E-02, 1.984239E-03, -6.867060E-03, -6.468424E-04, 2.939800E-03, -9.913628E-06, -1.397089E-04, -6.458749E-04, -1.079535E-03, 2.070580E-03, 3.885623E-04, -2.873759E-03, 1.565136E-03, 1.831864E-03],
  [2.136984E-05, 1.454530E-04, 1.455556E-04, -3.809610E-04, -1.922539E-03, -3.872594E-03, -3.547019E-03, 2.548692E-03, 1.478997E-02, 2.388848E-02, 1.255327E-02, -1.774168E-02, -2.885254E-02, 2.437978E-03, 2.966666E-02, 6.002817E-03, -2.478751E-02, -6.912931E-03, 1.966061E-02, 3.956866E-03, -1.546787E-02, -9.913628E-06, 1.185979E-02, -3.680608E-03, -8.133166E-03, 6.550539E-03, 3.577548E-03, -7.576206E-03, 1.580735E-03, 5.468085E-03, -5.282697E-03],
  [-4.109687E-05, -2.466233E-05, 1.078905E-04, 5.881640E-04, 1.550229E-03, 2.348536E-03, 2.177364E-03, 1.073461E-03, -1.620136E-03, -6.482345E-03, -8.159106E-03, -2.888594E-04, 8.511111E-03, 3.548582E-03, -6.948689E-03, -3.541586E-03, 6.068044E-03, 2.461363E-03, -5.419940E-03, -1.134563E-03, 4.633953E-03, -1.397089E-04, -3.680608E-03, 1.244509E-03, 2.530169E-03, -2.072439E-03, -1.076079E-03, 2.297520E-03, -5.272118E-04, -1.532755E-03, 1.570382E-03],
  [3.437982E-05, -1.283855E-04, -2.670992E-04, -1.556646E-04, 4.533608E-04, 1.579684E-03, 1.599352E-03, -3.379056E-03, -1.391983E-02, -1.909972E-02, -4.942762E-03, 1.899222E-02, 2.002704E-02, -7.647440E-03, -2.199490E-02, 1.046306E-04, 1.840230E-02, 1.989901E-03, -1.420857E-02, -1.136028E-03, 1.079531E-02, -6.458749E-04, -8.133166E-03, 2.530169E-03, 5.748920E-03, -4.236460E-03, -2.980617E-03, 5.151554E-03, -3.823891E-04, -4.220684E-03, 3.246779E-03],
  [-1.300738E-05, 2.170117E-04, 2.966786E-04, -2.543903E-04, -1.778669E-03, -4.039200E-03, -5.872789E-03, -4.290631E-03, 5.040879E-03, 1.942606E-02, 2.130772E-02, -1.319262E-03, -2.345943E-02, -1.083999E-02, 1.683814E-02, 1.238818E-02, -1.196897E-02, -9.205646E-03, 9.601170E-03, 4.983299E-03, -8.162706E-03, -1.079535E-03, 6.550539E-03, -2.072439E-03, -4.236460E-03, 4.110847E-03, 1.112319E-03, -4.353199E-03, 2.112953E-03, 2.299672E-03, -3.723003E-03],
  [-5.437787E-06, -1.798663E-04, -1.935569E-04, 2.335107E-04, 1.101422E-03, 2.061177E-03, 4.017671E-03, 9.603632E-03, 1.594789E-02, 9.793569E-03, -1.295080E-02, -2.628671E-02, -6.121015E-03, 2.129459E-02, 1.393753E-02, -1.255649E-02, -1.274505E-02, 6.906556E-03, 8.866965E-03, -3.869376E-03, -5.490261E-03, 2.070580E-03, 3.577548E-03, -1.076079E-03, -2.980617E-03, 1.112319E-03, 2.793638E-03, -2.169142E-03, -1.800125E-03, 3.256086E-03, -4.323398E-04],
  [1.244913E-05, 3.665061E-05, -2.322852E-05, 1.360749E-05, 6.192424E-04, 2.470524E-03, 4.536964E-03, 5.409881E-04, -1.567128E-02, -3.207371E-02, -2.070367E-02, 1.747674E-02, 3.363572E-02, 1.688636E-03, -2.769323E-02, -8.307928E-03, 1.946970E-02, 7.118337E-03, -1.378722E-02, -3.684099E-03, 1.017502E-02, 3.885623E-04, -7.576206E-03, 2.297520E-03, 5.151554E-03, -4.353199E-03, -2.169142E-03, 5.197776E-03, -1.420861E-03, -3.768744E-03, 4.151647E-03],
  [-1.196014E-05, 1.201565E-04, 2.607089E-04, -7.894932E-05, -1.403939E-03, -4.253352E-03, -9.770963E-03, -1.599994E-02, -1.164499E-02, 1.258402E-02, 3.653030E-02, 2.294847E-02, -1.920554E-02, -3.054440E-02, 3.568763E-03, 2.324917E-02, 1.144231E-03, -1.453126E-02, -3.797358E-04, 7.798856E-03, -1.191585E-03, -2.873759E-03, 1.580735E-03, -5.272118E-04, -3.823891E-04, 2.112953E-03, -1.800125E-03, -1.420861E-03, 3.436652E-03, -1.148716E-03, -2.772036E-03],
  [1.235522E-05, -1.890827E-04, -3.630134E-04, -9.712759E-05, 5.840136E-04, 9.436500E-04, 2.977026E-03, 1.347643E-02, 3.087530E-02, 3.108496E-02, -4.233328E-03, -4.076632E-02, -2.538287E-02, 2.212166E-02, 2.881807E-02, -8.393351E-03, -2.144561E-02, 3.251970E-03, 1.372380E-02, -1.959423E-03, -8.381316E-03, 1.565136E-03, 5.468085E-03, -1.532755E-03, -4.220684E-03, 2.299672E-03, 3.256086E-03, -3.768744E-03, -1.148716E-03, 4.503743E-03, -2.094364E-03],
  [-1.668331E-05, 1.338353E-04, 2.296843E-04, 2.058785E-04, 5.893618E-04, 3.509689E-03, 9.866581E-03, 1.044648E-02, -1.031837E-02, -4.323307E-02, -4.386891E-02, 5.268502E-03, 4.482372E-02, 1.881054E-02, -2.714125E-02, -2.006376E-02, 1.504508E-02, 1.341769E-02, -9.558821E-03, -6.749043E-03, 7.044695E-03, 1.831864E-03, -5.282697E-03, 1.570382E-03, 3.246779E-03, -3.723003E-03, -4.323398E-04, 4.151647E-03, -2.772036E-03, -2.094364E-03, 4.547034E-03]]

/-- `Daejeon16_public_v2.f90` 70-102. -/
def unc3p0 : List (List Num) := [
  [-1.429161E+00, 5.026708E-01, 1.965729E+00, 7.030952E-01, 1.720565E-01, -2.502382E-02, -1.954340E-02, -2.950120E-03, 7.610842E-04, 1.880438E-03, -4.100439E-05, -7.512832E-04, 2.217871E-04, 1.730809E-04, -1.493069E-04, 2.066115E-05, 4.046574E-05, -4.119464E-05, 1.850572E-05, 9.392813E-06, -2.884655E-05, 2.698146E-05, -4.074740E-06, -2.230904E-05, 3.097045E-05, -1.546834E-05, -1.057794E-05, 2.560829E-05, -1.812112E-05, -4.723344E-06, 0.000000E+00],
  [5.026708E-01, -8.936621E-01, 1.768477E+00, 1.972687E+00, 1.067376E+00, 2.299349E-01, -7.243261E-02, -6.551264E-02, -6.839761E-03, 1.491845E-02, 4.257873E-03, -4.705032E-03, -9.097094E-04, 1.738077E-03, -1.563729E-04, -5.525964E-04, 2.763826E-04, 8.748182E-05, -1.767963E-04, 9.521204E-05, 3.038531E-06, -6.055352E-05, 7.863984E-05, -6.712162E-05, 3.294948E-05, 1.334695E-05, -5.602926E-05, 7.973644E-05, -7.442583E-05, 3.716620E-05, 0.000000E+00],
  [1.965729E+00, 1.768477E+00, 3.047396E+00, 3.861862E+00, 3.147596E+00, 1.485359E+00, 1.736086E-01, -2.538885E-01, -1.301105E-01, 3.539461E-02, 4.277520E-02, -9.017864E-03, -1.331858E-02, 4.921973E-03, 3.502883E-03, -2.826234E-03, -2.027827E-04, 1.179234E-03, -6.044616E-04, -7.419381E-05, 3.495645E-04, -3.142956E-04, 1.193809E-04, 1.129239E-04, -2.369157E-04, 1.510792E-04, 8.221842E-05, -2.446281E-04, 1.453650E-04, 1.717197E-04, 0.000000E+00],
  [7.030952E-01, 1.972687E+00, 3.861862E+00, 5.538957E+00, 5.832341E+00, 4.068298E+00, 1.428853E+00, -2.797382E-01, -5.003448E-01, -6.243413E-02, 1.388333E-01, 2.948513E-02, -4.591075E-02, -4.825845E-03, 1.684072E-02, -2.809298E-03, -5.090340E-03, 3.102535E-03, 3.025729E-04, -1.226974E-03, 7.451139E-04, -2.940056E-04, 1.004843E-05, 3.976790E-04, -7.659654E-04, 5.987605E-04, 2.478526E-04, -1.172879E-03, 1.229517E-03, -5.288782E-05, 0.000000E+00],
  [1.720565E-01, 1.067376E+00, 3.147596E+00, 5.832341E+00, 7.642132E+00, 6.996398E+00, 3.883798E+00, 5.231894E-01, -8.939914E-01, -4.651990E-01, 1.776703E-01, 1.692417E-01, -5.741882E-02, -5.326103E-02, 2.877046E-02, 1.235991E-02, -1.425237E-02, 5.682406E-04, 5.025541E-03, -2.430144E-03, -6.154507E-04, 9.339210E-04, 3.932631E-05, -2.808102E-04, -5.725885E-04, 1.335523E-03, -6.738249E-04, -1.357393E-03, 2.941923E-03, -2.000340E-03, 0.000000E+00],
  [-2.502382E-02, 2.299349E-01, 1.485359E+00, 4.068298E+00, 6.996398E+00, 8.202318E+00, 6.283017E+00, 2.340860E+00, -6.351364E-01, -1.021886E+00, -7.743501E-02, 3.281191E-01, 4.250721E-02, -1.161200E-01, 3.906360E-04, 4.234658E-02, -1.223218E-02, -1.197717E-02, 9.823021E-03, 2.038523E-04, -4.338600E-03, 2.549818E-03, 6.059867E-04, -2.163576E-03, 1.282715E-03, 1.182785E-03, -2.854883E-03, 1.445891E-03, 2.547214E-03, -5.277801E-03, 0.000000E+00],
  [-1.954340E-02, -7.243261E-02, 1.736086E-01, 1.428853E+00, 3.883798E+00, 6.283017E+00, 6.571210E+00, 4.044972E+00, 5.959057E-01, -1.088216E+00, -5.947991E-01, 2.453353E-01, 2.321916E-01, -8.776365E-02, -7.452480E-02, 4.595116E-02, 1.547270E-02, -2.264711E-02, 3.441193E-03, 6.942878E-03, -5.222732E-03, 1.118578E-03, 9.690488E-04, -2.215661E-03, 2.958232E-03, -1.316716E-03, -2.833861E-03, 5.579013E-03, -2.667791E-03, -4.661934E-03, 0.000000E+00],
  [-2.950120E-03, -6.551264E-02, -2.538885E-01, -2.797382E-01, 5.231894E-01, 2.340860E+00, 4.044972E+00, 3.980664E+00, 1.939614E+00, -2.625507E-01, -8.446289E-01, -1.594212E-01, 2.801170E-01, 7.245034E-02, -1.053468E-01, -1.145644E-02, 4.138440E-02, -8.030463E-03, -1.269470E-02, 8.057917E-03, 1.488202E-03, -3.340975E-03, -1.495662E-04, 1.782152E-03, 1.011038E-03, -4.122245E-03, 2.175652E-03, 4.342732E-03, -8.283544E-03, 3.412693E-03, 0.000000E+00],
  [7.610842E-04, -6.839761E-03, -1.301105E-01, -5.003448E-01, -8.939914E-01, -6.351364E-01, 5.959057E-01, 1.939614E+00, 2.055581E+00, 8.168089E-01, -3.971910E-01, -4.897152E-01, 3.417038E-02, 1.916043E-01, -1.134580E-02, -7.070719E-02, 1.707952E-02, 2.201267E-02, -1.425165E-02, -2.418658E-03, 7.376005E-03, -3.811443E-03, -1.372450E-03, 4.399560E-03, -3.058967E-03, -2.165289E-03, 6.248072E-03, -3.543024E-03, -4.875551E-03, 1.019944E-02, 0.000000E+00],
  [1.880438E-03, 1.491845E-02, 3.539461E-02, -6.243413E-02, -4.651990E-01, -1.021886E+00, -1.088216E+00, -2.625507E-01, 8.168089E-01, 1.057087E+00, 3.420248E-01, -3.201355E-01, -2.528204E-01, 8.553207E-02, 1.071134E-01, -3.729134E-02, -3.624684E-02, 2.151619E-02, 7.347640E-03, -9.936403E-03, 1.059665E-03, 2.099916E-03, 4.368498E-05, -2.225808E-04, -2.858083E-03, 3.644050E-03, 1.387883E-03, -7.307013E-03, 5.785403E-03, 3.867044E-03, 0.000000E+00],
  [-4.100439E-05, 4.257873E-03, 4.277520E-02, 1.388333E-01, 1.776703E-01, -7.743501E-02, -5.947991E-01, -8.446289E-01, -3.971910E-01, 3.420248E-01, 5.546488E-01, 1.380395E-01, -2.170552E-01, -1.172831E-01, 7.973897E-02, 5.030231E-02, -3.652387E-02, -1.390958E-02, 1.808718E-02, -5.008147E-04, -7.680879E-03, 4.424110E-03, 1.944170E-03, -4.995097E-03, 1.936298E-03, 4.271492E-03, -6.160887E-03, -1.846091E-05, 8.179707E-03, -8.136235E-03, 0.000000E+00],
  [-7.512832E-04, -4.705032E-03, -9.017864E-03, 2.948513E-02, 1.692417E-01, 3.281191E-01, 2.453353E-01, -1.594212E-01, -4.897152E-01, -3.201355E-01, 1.380395E-01, 2.966862E-01, 5.546003E-02, -1.347101E-01, -4.946753E-02, 5.759530E-02, 1.922819E-02, -2.594754E-02, -2.531465E-03, 1.000871E-02, -2.020273E-03, -1.608204E-03, 1.873945E-05, -6.147100E-04, 3.355085E-03, -2.287421E-03, -3.511599E-03, 6.887372E-03, -1.925107E-03, -7.062758E-03, 0.000000E+00],
  [2.217871E-04, -9.097094E-04, -1.331858E-02, -4.591075E-02, -5.741882E-02, 4.250721E-02, 2.321916E-01, 2.801170E-01, 3.417038E-02, -2.528204E-01, -2.170552E-01, 5.546003E-02, 1.630114E-01, 2.152610E-02, -8.078104E-02, -1.833497E-02, 3.789800E-02, 4.920073E-03, -1.770989E-02, 2.260215E-03, 7.570104E-03, -4.373411E-03, -2.505976E-03, 4.853940E-03, -7.881874E-04, -4.761663E-03, 4.609932E-03, 2.071456E-03, -7.538287E-03, 4.410051E-03, 0.000000E+00],
  [1.730809E-04, 1.738077E-03, 4.921973E-03, -4.825845E-03, -5.326103E-02, -1.161200E-01, -8.776365E-02, 7.245034E-02, 1.916043E-01, 8.553207E-02, -1.172831E-01, -1.347101E-01, 2.152610E-02, 9.036773E-02, 7.593029E-03, -4.666602E-02, -4.972380E-03, 2.202514E-02, -6.720069E-04, -8.646097E-03, 2.203201E-03, 1.549095E-03, -1.868590E-04, 6.575216E-04, -2.770881E-03, 1.257821E-03, 3.541001E-03, -5.021406E-03, -7.589595E-05, 6.269547E-03, 0.000000E+00],
  [-1.493069E-04, -1.563729E-04, 3.502883E-03, 1.684072E-02, 2.877046E-02, 3.906360E-04, -7.452480E-02, -1.053468E-01, -1.134580E-02, 1.071134E-01, 7.973897E-02, -4.946753E-02, -8.078104E-02, 7.593029E-03, 5.116138E-02, 2.221044E-03, -2.760194E-02, -2.505563E-06, 1.402893E-02, -2.773060E-03, -6.599268E-03, 3.915085E-03, 2.549770E-03, -4.275202E-03, 2.388332E-04, 4.150641E-03, -3.213348E-03, -2.243244E-03, 5.518459E-03, -2.215211E-03, 0.000000E+00],
  [2.066115E-05, -5.525964E-04, -2.826234E-03, -2.809298E-03, 1.235991E-02, 4.234658E-02, 4.595116E-02, -1.145644E-02, -7.070719E-02, -3.729134E-02, 5.030231E-02, 5.759530E-02, -1.833497E-02, -4.666602E-02, 2.221044E-03, 2.817808E-02, 2.042854E-04, -1.471260E-02, 1.145034E-03, 6.348438E-03, -1.509443E-03, -1.541930E-03, 1.160862E-04, -1.662135E-04, 1.863278E-03, -9.097728E-04, -2.451190E-03, 3.300484E-03, 3.100796E-04, -4.170095E-03, 0.000000E+00],
  [4.046574E-05, 2.763826E-04, -2.027827E-04, -5.090340E-03, -1.425237E-02, -1.223218E-02, 1.547270E-02, 4.138440E-02, 1.707952E-02, -3.624684E-02, -3.652387E-02, 1.922819E-02, 3.789800E-02, -4.972380E-03, -2.760194E-02, 2.042854E-04, 1.692233E-02, -6.799210E-04, -9.652138E-03, 2.140133E-03, 5.110975E-03, -3.077011E-03, -2.163940E-03, 3.434278E-03, -1.364179E-04, -3.136219E-03, 2.305694E-03, 1.557408E-03, -3.656696E-03, 1.389895E-03, 0.000000E+00],
  [-4.119464E-05, 8.748182E-05, 1.179234E-03, 3.102535E-03, 5.682406E-04, -1.197717E-02, -2.264711E-02, -8.030463E-03, 2.201267E-02, 2.151619E-02, -1.390958E-02, -2.594754E-02, 4.920073E-03, 2.202514E-02, -2.505563E-06, -1.471260E-02, -6.799210E-04, 8.427941E-03, -3.321918E-05, -4.127569E-03, 3.552030E-04, 1.496000E-03, 1.909893E-04, -4.694159E-04, -1.071058E-03, 9.543386E-04, 1.186360E-03, -2.082031E-03, 1.357715E-04, 2.244521E-03, 0.000000E+00],
  [1.850572E-05, -1.767963E-04, -6.044616E-04, 3.025729E-04, 5.025541E-03, 9.823021E-03, 3.441193E-03, -1.269470E-02, -1.425165E-02, 7.347640E-03, 1.808718E-02, -2.531465E-03, -1.770989E-02, -6.720069E-04, 1.402893E-02, 1.145034E-03, -9.652138E-03, -3.321918E-05, 6.122667E-03, -1.236316E-03, -3.572591E-03, 2.126527E-03, 1.589710E-03, -2.483229E-03, 1.588202E-04, 2.125368E-03, -1.647564E-03, -8.369044E-04, 2.277314E-03, -1.049608E-03, 0.000000E+00],
  [9.392813E-06, 9.521204E-05, -7.419381E-05, -1.226974E-03, -2.430144E-03, 2.038523E-04, 6.942878E-03, 8.057917E-03, -2.418658E-03, -9.936403E-03, -5.008147E-04, 1.000871E-02, 2.260215E-03, -8.646097E-03, -2.773060E-03, 6.348438E-03, 2.140133E-03, -4.127569E-03, -1.236316E-03, 2.445880E-03, 6.715961E-04, -1.393383E-03, -5.148932E-04, 9.607878E-04, 5.030452E-04, -1.060179E-03, -1.893602E-04, 1.248384E-03, -5.838565E-04, -8.598253E-04, 0.000000E+00],
  [-2.884655E-05, 3.038531E-06, 3.495645E-04, 7.451139E-04, -6.154507E-04, -4.338600E-03, -5.222732E-03, 1.488202E-03, 7.376005E-03, 1.059665E-03, -7.680879E-03, -2.020273E-03, 7.570104E-03, 2.203201E-03, -6.599268E-03, -1.509443E-03, 5.110975E-03, 3.552030E-04, -3.572591E-03, 6.715961E-04, 2.200193E-03, -1.324103E-03, -9.955444E-04, 1.568896E-03, -1.283933E-04, -1.286501E-03, 1.035808E-03, 4.119173E-04, -1.298288E-03, 6.938676E-04, 0.000000E+00],
  [2.698146E-05, -6.055352E-05, -3.142956E-04, -2.940056E-04, 9.339210E-04, 2.549818E-03, 1.118578E-03, -3.340975E-03, -3.811443E-03, 2.099916E-03, 4.424110E-03, -1.608204E-03, -4.373411E-03, 1.549095E-03, 3.915085E-03, -1.541930E-03, -3.077011E-03, 1.496000E-03, 2.126527E-03, -1.393383E-03, -1.324103E-03, 1.286400E-03, 7.113571E-04, -1.222388E-03, -1.531692E-04, 1.100236E-03, -4.218505E-04, -7.213589E-04, 8.458568E-04, 2.337690E-05, 0.000000E+00],
  [-4.074740E-06, 7.863984E-05, 1.193809E-04, 1.004843E-05, 3.932631E-05, 6.059867E-04, 9.690488E-04, -1.495662E-04, -1.372450E-03, 4.368498E-05, 1.944170E-03, 1.873945E-05, -2.505976E-03, -1.868590E-04, 2.549770E-03, 1.160862E-04, -2.163940E-03, 1.909893E-04, 1.589710E-03, -5.148932E-04, -9.955444E-04, 7.113571E-04, 4.627673E-04, -7.585381E-04, 9.104281E-06, 6.366927E-04, -4.101091E-04, -2.832609E-04, 5.772673E-04, -2.028999E-04, 0.000000E+00],
  [-2.230904E-05, -6.712162E-05, 1.129239E-04, 3.976790E-04, -2.808102E-04, -2.163576E-03, -2.215661E-03, 1.782152E-03, 4.399560E-03, -2.225808E-04, -4.995097E-03, -6.147100E-04, 4.853940E-03, 6.575216E-04, -4.275202E-03, -1.662135E-04, 3.434278E-03, -4.694159E-04, -2.483229E-03, 9.607878E-04, 1.568896E-03, -1.222388E-03, -7.585381E-04, 1.278719E-03, 1.523255E-05, -1.080977E-03, 6.385455E-04, 5.136466E-04, -9.345869E-04, 2.851696E-04, 0.000000E+00],
  [3.097045E-05, 3.294948E-05, -2.369157E-04, -7.659654E-04, -5.725885E-04, 1.282715E-03, 2.958232E-03, 1.011038E-03, -3.058967E-03, -2.858083E-03, 1.936298E-03, 3.355085E-03, -7.881874E-04, -2.770881E-03, 2.388332E-04, 1.863278E-03, -1.364179E-04, -1.071058E-03, 1.588202E-04, 5.030452E-04, -1.283933E-04, -1.531692E-04, 9.104281E-06, 1.523255E-05, 1.400123E-04, -7.998514E-05, -1.890241E-04, 2.511000E-04, 3.311891E-05, -3.113253E-04, 0.000000E+00],
  [-1.546834E-05, 1.334695E-05, 1.510792E-04, 5.987605E-04, 1.335523E-03, 1.182785E-03, -1.316716E-03, -4.122245E-03, -2.165289E-03, 3.644050E-03, 4.271492E-03, -2.287421E-03, -4.761663E-03, 1.257821E-03, 4.150641E-03, -9.097728E-04, -3.136219E-03, 9.543386E-04, 2.125368E-03, -1.060179E-03, -1.286501E-03, 1.100236E-03, 6.366927E-04, -1.080977E-03, -7.998514E-05, 9.583403E-04, -4.567929E-04, -5.759447E-04, 8.152967E-04, -9.521860E-05, 0.000000E+00],
  [-1.057794E-05, -5.602926E-05, 8.221842E-05, 2.478526E-04, -6.738249E-04, -2.854883E-03, -2.833861E-03, 2.175652E-03, 6.248072E-03, 1.387883E-03, -6.160887E-03, -3.511599E-03, 4.609932E-03, 3.541001E-03, -3.213348E-03, -2.451190E-03, 2.305694E-03, 1.186360E-03, -1.647564E-03, -1.893602E-04, 1.035808E-03, -4.218505E-04, -4.101091E-04, 6.385455E-04, -1.890241E-04, -4.567929E-04, 6.030006E-04, -5.559432E-05, -5.800782E-04, 5.814477E-04, 0.000000E+00],
  [2.560829E-05, 7.973644E-05, -2.446281E-04, -1.172879E-03, -1.357393E-03, 1.445891E-03, 5.579013E-03, 4.342732E-03, -3.543024E-03, -7.307013E-03, -1.846091E-05, 6.887372E-03, 2.071456E-03, -5.021406E-03, -2.243244E-03, 3.300484E-03, 1.557408E-03, -2.082031E-03, -8.369044E-04, 1.248384E-03, 4.119173E-04, -7.213589E-04, -2.832609E-04, 5.136466E-04, 2.511000E-04, -5.759447E-04, -5.559432E-05, 6.566161E-04, -3.694329E-04, -4.079558E-04, 0.000000E+00],
  [-1.812112E-05, -7.442583E-05, 1.453650E-04, 1.229517E-03, 2.941923E-03, 2.547214E-03, -2.667791E-03, -8.283544E-03, -4.875551E-03, 5.785403E-03, 8.179707E-03, -1.925107E-03, -7.538287E-03, -7.589595E-05, 5.518459E-03, 3.100796E-04, -3.656696E-03, 1.357715E-04, 2.277314E-03, -5.838565E-04, -1.298288E-03, 8.458568E-04, 5.772673E-04, -9.345869E-04, 3.311891E-05, 8.152967E-04, -5.800782E-04, -3.694329E-04, 8.596153E-04, -3.436133E-04, 0.000000E+00],
  [-4.723344E-06, 3.716620E-05, 1.717197E-04, -5.288782E-05, -2.000340E-03, -5.277801E-03, -4.661934E-03, 3.412693E-03, 1.019944E-02, 3.867044E-03, -8.136235E-03, -7.062758E-03, 4.410051E-03, 6.269547E-03, -2.215211E-03, -4.170095E-03, 1.389895E-03, 2.244521E-03, -1.049608E-03, -8.598253E-04, 6.938676E-04, 2.337690E-05, -2.028999E-04, 2.851696E-04, -3.113253E-04, -9.521860E-05, 5.814477E-04, -4.079558E-04, -3.436133E-04, 7.681784E-04, 0.000000E+00],
  [0.000000E+00, 0.000000E+00, 0.000000E+00, 0.000000E+00, 0.000000E+00, 0.000000E+00, 0.000000E+00, 0.000000E+00, 0.000000E+00, 0.000000E+00, 0.000000E+00, 0.000000E+00, 0.000000E+00, 0.000000E+00, 0.000000E+00, 0.000000E+00, 0.000000E+00, 0.000000E+00, 0.000000E+00, 0.000000E+00, 0.000000E+00, 0.000000E+00, 0.000000E+00, 0.000000E+00, 0.000000E+00, 0.000000E+00, 0.000000E+00, 0.000000E+00, 0.000000E+00, 0.000000E+00, 0.000000E+00]]

/-- `Daejeon16_public_v2.f90` 103-135. -/
def unc1p1 : List (List Num) := [
  [9.157948E+00, 5.658886E+00, 5.695408E+00, 1.063490E+00, 2.169647E-01, -4.450662E-02, -3.101786E-02, 4.304211E-03, 3.640648E-03, -1.690794E-03, -2.805903E-04, 5.465026E-04, -7.511977E-05, -1.321616E-04, 2.861052E-05, 7.020873E-05, -3.920716E-05, -4.804224E-05, 8.658840E-05, -4.207829E-05, -3.878839E-05, 8.186438E-05, -5.397447E-05, -1.193762E-05, 5.381155E-05, -3.993908E-05, -6.250386E-06, 3.476194E-05, -1.830912E-05, -2.480719E-05, 0.000000E+00],
  [5.658886E+00, 1.476061E+00, 5.338100E+00, 3.414334E+00, 1.256653E+00, 8.788946E-02, -1.353239E-01, -3.038550E-02, 1.680040E-02, 1.953713E-03, -3.236802E-03, 8.983729E-04, 5.808894E-04, -5.152768E-04, -5.286873E-05, 2.227153E-04, -4.264220E-05, -1.225473E-04, 1.170268E-04, 4.569906E-06, -1.179446E-04, 1.242630E-04, -1.495909E-05, -1.153067E-04, 1.454630E-04, -4.168343E-05, -1.047299E-04, 1.597617E-04, -7.112537E-05, -8.480897E-05, 0.000000E+00],
  [5.695408E+00, 5.338100E+00, 8.666136E+00, 8.042777E+00, 4.772509E+00, 1.481778E+00, -1.072121E-01, -2.508726E-01, -2.864205E-02, 3.131212E-02, 2.329690E-03, -3.371702E-03, 1.324222E-03, -2.141960E-04, -6.396772E-04, 3.236203E-04, 2.589311E-04, -2.092353E-04, -1.553375E-04, 2.876126E-04, -1.331221E-04, -9.201923E-05, 2.447636E-04, -2.768736E-04, 1.545380E-04, 9.769437E-05, -3.279796E-04, 3.442481E-04, -1.077197E-04, -1.969664E-04, 0.000000E+00],
  [1.063490E+00, 3.414334E+00, 8.042777E+00, 1.111045E+01, 9.740859E+00, 5.225072E+00, 1.145035E+00, -4.679036E-01, -3.428400E-01, 8.961070E-03, 5.569515E-02, 2.745606E-03, -6.316470E-03, -3.998632E-04, -3.290323E-04, 9.245488E-06, 9.201451E-04, -1.327703E-04, -9.001925E-04, 6.586984E-04, 2.794882E-04, -7.337573E-04, 4.507916E-04, 3.990419E-05, -2.993459E-04, 3.201016E-04, -2.300137E-04, 3.974594E-05, 2.186391E-04, -3.223320E-04, 0.000000E+00],
  [2.169647E-01, 1.256653E+00, 4.772509E+00, 9.740859E+00, 1.239481E+01, 9.967350E+00, 4.514478E+00, 3.075949E-01, -8.373682E-01, -3.180326E-01, 1.011129E-01, 7.800582E-02, -1.064176E-02, -1.473731E-02, 9.133072E-05, 2.162768E-03, 1.359837E-03, -3.004136E-04, -1.570712E-03, 7.078412E-04, 1.105377E-03, -1.343014E-03, 5.581121E-05, 1.042777E-03, -9.354919E-04, 1.280996E-04, 4.406843E-04, -5.802280E-04, 6.426073E-04, -5.739025E-04, 0.000000E+00],
  [-4.450662E-02, 8.788946E-02, 1.481778E+00, 5.225072E+00, 9.967350E+00, 1.176288E+01, 8.454677E+00, 2.871288E+00, -6.294711E-01, -9.591575E-01, -1.247274E-01, 2.027594E-01, 5.780340E-02, -4.172105E-02, -1.602248E-02, 8.925514E-03, 4.509739E-03, -1.906722E-03, -2.037196E-03, 6.720352E-04, 1.659623E-03, -1.298771E-03, -8.462274E-04, 1.918624E-03, -7.384148E-04, -1.055938E-03, 1.257584E-03, 2.770711E-05, -6.228607E-04, -5.463815E-04, 0.000000E+00],
  [-3.101786E-02, -1.353239E-01, -1.072121E-01, 1.145035E+00, 4.514478E+00, 8.454677E+00, 9.340680E+00, 5.819836E+00, 1.075088E+00, -1.153108E+00, -7.224666E-01, 1.283871E-01, 2.172798E-01, -1.143456E-02, -5.829432E-02, 3.051060E-03, 1.535968E-02, -1.827464E-03, -4.102885E-03, 7.803025E-04, 1.734365E-03, -8.262903E-04, -1.317359E-03, 1.985026E-03, 2.108260E-05, -2.707002E-03, 2.371162E-03, 1.549902E-03, -4.525329E-03, 1.932519E-03, 0.000000E+00],
  [4.304211E-03, -3.038550E-02, -2.508726E-01, -4.679036E-01, 3.075949E-01, 2.871288E+00, 5.819836E+00, 6.169867E+00, 3.218116E+00, -1.017614E-01, -1.093904E+00, -3.244558E-01, 2.589180E-01, 1.307427E-01, -6.680267E-02, -3.758603E-02, 2.044998E-02, 8.473013E-03, -6.369161E-03, -1.179049E-03, 1.701524E-03, -2.791563E-04, -4.551168E-04, 1.302903E-03, -8.098331E-04, -2.178483E-03, 4.065172E-03, -3.562108E-04, -6.481281E-03, 7.651827E-03, 0.000000E+00],
  [3.640648E-03, 1.680040E-02, -2.864205E-02, -3.428400E-01, -8.373682E-01, -6.294711E-01, 1.075088E+00, 3.218116E+00, 3.485026E+00, 1.480421E+00, -4.995965E-01, -7.386294E-01, -3.689320E-02, 2.357843E-01, 3.448951E-02, -7.248121E-02, -8.618154E-03, 2.219908E-02, 5.153915E-04, -6.070133E-03, -2.160537E-04, 1.382808E-03, 1.566719E-03, -8.662628E-04, -2.838825E-03, 2.491796E-03, 3.259025E-03, -6.362019E-03, 1.819501E-04, 9.549691E-03, 0.000000E+00],
  [-1.690794E-03, 1.953713E-03, 3.131212E-02, 8.961070E-03, -3.180326E-01, -9.591575E-01, -1.153108E+00, -1.017614E-01, 1.480421E+00, 1.822081E+00, 6.223614E-01, -4.722674E-01, -4.112591E-01, 8.099394E-02, 1.560949E-01, -1.957833E-02, -5.190561E-02, 1.009941E-02, 1.605657E-02, -5.808384E-03, -5.200017E-03, 3.534373E-03, 2.843613E-03, -4.160342E-03, -1.496809E-03, 6.705234E-03, -3.048925E-03, -6.954535E-03, 1.052971E-02, -4.385092E-04, 0.000000E+00],
  [-2.805903E-04, -3.236802E-03, 2.329690E-03, 5.569515E-02, 1.011129E-01, -1.247274E-01, -7.224666E-01, -1.093904E+00, -4.995965E-01, 6.223614E-01, 9.558988E-01, 2.561277E-01, -3.398429E-01, -2.032347E-01, 9.975696E-02, 8.390944E-02, -3.533877E-02, -2.672160E-02, 1.501415E-02, 5.499378E-03, -6.000462E-03, 1.440636E-03, 9.247652E-04, -3.508683E-03, 3.412587E-03, 2.606545E-03, -7.950056E-03, 3.184263E-03, 8.660854E-03, -1.271211E-02, 0.000000E+00],
  [5.465026E-04, 8.983729E-04, -3.371702E-03, 2.745606E-03, 7.800582E-02, 2.027594E-01, 1.283871E-01, -3.244558E-01, -7.386294E-01, -4.722674E-01, 2.561277E-01, 5.145816E-01, 1.043493E-01, -2.195595E-01, -9.168649E-02, 8.130170E-02, 3.894632E-02, -3.178113E-02, -1.201586E-02, 1.236680E-02, 3.477282E-03, -4.452640E-03, -2.989441E-03, 3.116980E-03, 4.041050E-03, -6.275886E-03, -1.837326E-03, 1.014431E-02, -5.947606E-03, -7.963472E-03, 0.000000E+00],
  [-7.511977E-05, 5.808894E-04, 1.324222E-03, -6.316470E-03, -1.064176E-02, 5.780340E-02, 2.172798E-01, 2.589180E-01, -3.689320E-02, -4.112591E-01, -3.398429E-01, 1.043493E-01, 2.837778E-01, 4.094462E-02, -1.348298E-01, -3.608479E-02, 5.705717E-02, 1.297328E-02, -2.409838E-02, -6.727524E-04, 9.890843E-03, -3.947085E-03, -3.151911E-03, 5.817220E-03, -1.792517E-03, -5.842932E-03, 7.400945E-03, 1.473146E-03, -1.099274E-02, 8.073651E-03, 0.000000E+00],
  [-1.321616E-04, -5.152768E-04, -2.141960E-04, -3.998632E-04, -1.473731E-02, -4.172105E-02, -1.143456E-02, 1.307427E-01, 2.357843E-01, 8.099394E-02, -2.032347E-01, -2.195595E-01, 4.094462E-02, 1.589412E-01, 1.563312E-02, -7.978038E-02, -1.243892E-02, 3.527140E-02, 3.362800E-03, -1.379146E-02, -3.374275E-04, 4.153978E-03, 1.796117E-03, -1.607855E-03, -4.283174E-03, 4.080473E-03, 4.060561E-03, -8.579715E-03, 1.532044E-03, 9.339004E-03, 0.000000E+00],
  [2.861052E-05, -5.286873E-05, -6.396772E-04, -3.290323E-04, 9.133072E-05, -1.602248E-02, -5.829432E-02, -6.680267E-02, 3.448951E-02, 1.560949E-01, 9.975696E-02, -9.168649E-02, -1.348298E-01, 1.563312E-02, 9.065915E-02, 4.303690E-03, -4.764868E-02, -1.240565E-03, 2.269017E-02, -3.088500E-03, -1.012693E-02, 5.101552E-03, 3.842088E-03, -6.124184E-03, 5.667350E-04, 6.181064E-03, -5.369072E-03, -3.120591E-03, 8.959177E-03, -4.038906E-03, 0.000000E+00],
  [7.020873E-05, 2.227153E-04, 3.236203E-04, 9.245488E-06, 2.162768E-03, 8.925514E-03, 3.051060E-03, -3.758603E-02, -7.248121E-02, -1.957833E-02, 8.390944E-02, 8.130170E-02, -3.608479E-02, -7.978038E-02, 4.303690E-03, 5.091302E-02, 1.274964E-03, -2.637985E-02, 5.644851E-04, 1.132774E-02, -9.858483E-04, -3.528925E-03, -8.732123E-04, 1.059495E-03, 3.242938E-03, -2.632368E-03, -3.536587E-03, 5.981595E-03, -1.227635E-04, -6.930907E-03, 0.000000E+00],
  [-3.920716E-05, -4.264220E-05, 2.589311E-04, 9.201451E-04, 1.359837E-03, 4.509739E-03, 1.535968E-02, 2.044998E-02, -8.618154E-03, -5.190561E-02, -3.533877E-02, 3.894632E-02, 5.705717E-02, -1.243892E-02, -4.764868E-02, 1.274964E-03, 3.040157E-02, -1.450916E-03, -1.686651E-02, 3.602169E-03, 8.438900E-03, -4.841346E-03, -3.461014E-03, 5.393780E-03, -2.234912E-04, -5.074303E-03, 3.824274E-03, 2.594472E-03, -6.179598E-03, 2.303868E-03, 0.000000E+00],
  [-4.804224E-05, -1.225473E-04, -2.092353E-04, -1.327703E-04, -3.004136E-04, -1.906722E-03, -1.827464E-03, 8.473013E-03, 2.219908E-02, 1.009941E-02, -2.672160E-02, -3.178113E-02, 1.297328E-02, 3.527140E-02, -1.240565E-03, -2.637985E-02, -1.450916E-03, 1.599480E-02, 2.369923E-04, -7.953857E-03, 2.870690E-04, 3.071137E-03, 6.878313E-04, -1.318194E-03, -2.007088E-03, 2.127591E-03, 1.954184E-03, -3.885377E-03, 4.128815E-04, 3.986334E-03, 0.000000E+00],
  [8.658840E-05, 1.170268E-04, -1.553375E-04, -9.001925E-04, -1.570712E-03, -2.037196E-03, -4.102885E-03, -6.369161E-03, 5.153915E-04, 1.605657E-02, 1.501415E-02, -1.201586E-02, -2.409838E-02, 3.362800E-03, 2.269017E-02, 5.644851E-04, -1.686651E-02, 2.369923E-04, 1.103235E-02, -2.344706E-03, -6.280976E-03, 3.739218E-03, 2.688720E-03, -4.203882E-03, 2.482145E-04, 3.622079E-03, -2.751731E-03, -1.535893E-03, 3.908847E-03, -1.635220E-03, 0.000000E+00],
  [-4.207829E-05, 4.569906E-06, 2.876126E-04, 6.586984E-04, 7.078412E-04, 6.720352E-04, 7.803025E-04, -1.179049E-03, -6.070133E-03, -5.808384E-03, 5.499378E-03, 1.236680E-02, -6.727524E-04, -1.379146E-02, -3.088500E-03, 1.132774E-02, 3.602169E-03, -7.953857E-03, -2.344706E-03, 4.970654E-03, 1.203060E-03, -2.789514E-03, -9.471676E-04, 1.858060E-03, 9.935778E-04, -2.042411E-03, -4.065495E-04, 2.386385E-03, -1.030833E-03, -1.671202E-03, 0.000000E+00],
  [-3.878839E-05, -1.179446E-04, -1.331221E-04, 2.794882E-04, 1.105377E-03, 1.659623E-03, 1.734365E-03, 1.701524E-03, -2.160537E-04, -5.200017E-03, -6.000462E-03, 3.477282E-03, 9.890843E-03, -3.374275E-04, -1.012693E-02, -9.858483E-04, 8.438900E-03, 2.870690E-04, -6.280976E-03, 1.203060E-03, 4.058927E-03, -2.432712E-03, -1.832557E-03, 2.844252E-03, -2.063013E-04, -2.300055E-03, 1.770056E-03, 8.072141E-04, -2.240370E-03, 1.045301E-03, 0.000000E+00],
  [8.186438E-05, 1.242630E-04, -9.201923E-05, -7.337573E-04, -1.343014E-03, -1.298771E-03, -8.262903E-04, -2.791563E-04, 1.382808E-03, 3.534373E-03, 1.440636E-03, -4.452640E-03, -3.947085E-03, 4.153978E-03, 5.101552E-03, -3.528925E-03, -4.841346E-03, 3.071137E-03, 3.739218E-03, -2.789514E-03, -2.432712E-03, 2.536738E-03, 1.289569E-03, -2.291512E-03, -3.294741E-04, 2.036794E-03, -6.541820E-04, -1.415638E-03, 1.444396E-03, 2.302333E-04, 0.000000E+00],
  [-5.397447E-05, -1.495909E-05, 2.447636E-04, 4.507916E-04, 5.581121E-05, -8.462274E-04, -1.317359E-03, -4.551168E-04, 1.566719E-03, 2.843613E-03, 9.247652E-04, -2.989441E-03, -3.151911E-03, 1.796117E-03, 3.842088E-03, -8.732123E-04, -3.461014E-03, 6.878313E-04, 2.688720E-03, -9.471676E-04, -1.832557E-03, 1.289569E-03, 9.343057E-04, -1.445430E-03, -1.625971E-05, 1.202865E-03, -7.189036E-04, -5.563229E-04, 1.002356E-03, -2.583626E-04, 0.000000E+00],
  [-1.193762E-05, -1.153067E-04, -2.768736E-04, 3.990419E-05, 1.042777E-03, 1.918624E-03, 1.985026E-03, 1.302903E-03, -8.662628E-04, -4.160342E-03, -3.508683E-03, 3.116980E-03, 5.817220E-03, -1.607855E-03, -6.124184E-03, 1.059495E-03, 5.393780E-03, -1.318194E-03, -4.203882E-03, 1.858060E-03, 2.844252E-03, -2.291512E-03, -1.445430E-03, 2.398155E-03, 7.994269E-05, -2.001993E-03, 1.063692E-03, 1.017406E-03, -1.590982E-03, 3.131727E-04, 0.000000E+00],
  [5.381155E-05, 1.454630E-04, 1.545380E-04, -2.993459E-04, -9.354919E-04, -7.384148E-04, 2.108260E-05, -8.098331E-04, -2.838825E-03, -1.496809E-03, 3.412587E-03, 4.041050E-03, -1.792517E-03, -4.283174E-03, 5.667350E-04, 3.242938E-03, -2.234912E-04, -2.007088E-03, 2.482145E-04, 9.935778E-04, -2.063013E-04, -3.294741E-04, -1.625971E-05, 7.994269E-05, 2.723827E-04, -2.039493E-04, -3.170056E-04, 4.713616E-04, 3.720656E-05, -5.489848E-04, 0.000000E+00],
  [-3.993908E-05, -4.168343E-05, 9.769437E-05, 3.201016E-04, 1.280996E-04, -1.055938E-03, -2.707002E-03, -2.178483E-03, 2.491796E-03, 6.705234E-03, 2.606545E-03, -6.275886E-03, -5.842932E-03, 4.080473E-03, 6.181064E-03, -2.632368E-03, -5.074303E-03, 2.127591E-03, 3.622079E-03, -2.042411E-03, -2.300055E-03, 2.036794E-03, 1.202865E-03, -2.001993E-03, -2.039493E-04, 1.780829E-03, -7.622115E-04, -1.104657E-03, 1.396944E-03, -2.579929E-05, 0.000000E+00],
  [-6.250386E-06, -1.047299E-04, -3.279796E-04, -2.300137E-04, 4.406843E-04, 1.257584E-03, 2.371162E-03, 4.065172E-03, 3.259025E-03, -3.048925E-03, -7.950056E-03, -1.837326E-03, 7.400945E-03, 4.060561E-03, -5.369072E-03, -3.536587E-03, 3.824274E-03, 1.954184E-03, -2.751731E-03, -4.065495E-04, 1.770056E-03, -6.541820E-04, -7.189036E-04, 1.063692E-03, -3.170056E-04, -7.622115E-04, 1.018321E-03, -9.904277E-05, -9.654111E-04, 9.459405E-04, 0.000000E+00],
  [3.476194E-05, 1.597617E-04, 3.442481E-04, 3.974594E-05, -5.802280E-04, 2.770711E-05, 1.549902E-03, -3.562108E-04, -6.362019E-03, -6.954535E-03, 3.184263E-03, 1.014431E-02, 1.473146E-03, -8.579715E-03, -3.120591E-03, 5.981595E-03, 2.594472E-03, -3.885377E-03, -1.535893E-03, 2.386385E-03, 8.072141E-04, -1.415638E-03, -5.563229E-04, 1.017406E-03, 4.713616E-04, -1.104657E-03, -9.904277E-05, 1.220048E-03, -6.603987E-04, -7.636453E-04, 0.000000E+00],
  [-1.830912E-05, -7.112537E-05, -1.077197E-04, 2.186391E-04, 6.426073E-04, -6.228607E-04, -4.525329E-03, -6.481281E-03, 1.819501E-04, 1.052971E-02, 8.660854E-03, -5.947606E-03, -1.099274E-02, 1.532044E-03, 8.959177E-03, -1.227635E-04, -6.179598E-03, 4.128815E-04, 3.908847E-03, -1.030833E-03, -2.240370E-03, 1.444396E-03, 1.002356E-03, -1.590982E-03, 3.720656E-05, 1.396944E-03, -9.654111E-04, -6.603987E-04, 1.450850E-03, -5.213149E-04, 0.000000E+00],
  [-2.480719E-05, -8.480897E-05, -1.969664E-04, -3.223320E-04, -5.739025E-04, -5.463815E-04, 1.932519E-03, 7.651827E-03, 9.549691E-03, -4.385092E-04, -1.271211E-02, -7.963472E-03, 8.073651E-03, 9.339004E-03, -4.038906E-03, -6.930907E-03, 2.303868E-03, 3.986334E-03, -1.635220E-03, -1.671202E-03, 1.045301E-03, 2.302333E-04, -2.583626E-04, 3.131727E-04, -5.489848E-04, -2.579929E-05, 9.459405E-04, -7.636453E-04, -5.213149E-04, 1.302885E-03, 0.000000E+00],
  [0.000000E+00, 0.000000E+00, 0.000000E+00, 0.000000E+00, 0.000000E+00, 0.000000E+00, 0.000000E+00, 0.000000E+00, 0.000000E+00, 0.000000E+00, 0.000000E+00, 0.000000E+00, 0.000000E+00, 0.000000E+00, 0.000000E+00, 0.000000E+00, 0.000000E+00, 0.000000E+00, 0.000000E+00, 0.000000E+00, 0.000000E+00, 0.000000E+00, 0.000000E+00, 0.000000E+00, 0.000000E+00, 0.000000E+00, 0.000000E+00, 0.000000E+00, 0.000000E+00, 0.000000E+00, 0.000000E+00]]

/-- `Daejeon16_public_v2.f90` 136-168. -/
def unc3p1 : List (List Num) := [
  [7.898094E+00, 5.427381E+00, 4.829530E+00, 6.059118E-01, -3.092660E-01, -4.091000E-01, -1.363188E-01, 7.278576E-02, 6.783185E-02, -1.348402E-02, -2.550536E-02, 5.534979E-03, 9.047099E-03, -3.708599E-03, -2.669271E-03, 2.324291E-03, 2.349811E-04, -1.110236E-03, 5.019909E-04, 1.931769E-04, -4.037377E-04, 2.582418E-04, 7.556362E-06, -2.219164E-04, 2.479303E-04, -5.119125E-05, -2.155675E-04, 3.010688E-04, -8.766146E-05, -2.654556E-04, 0.000000E+00],
  [5.427381E+00, 2.209958E+00, 4.664117E+00, 2.041443E+00, -4.961162E-01, -1.372985E+00, -7.076574E-01, 1.752998E-01, 3.118936E-01, -1.024026E-02, -1.182964E-01, 7.295160E-03, 4.511287E-02, -1.123201E-02, -1.519163E-02, 9.342872E-03, 2.756578E-03, -5.149938E-03, 1.449361E-03, 1.434199E-03, -1.716786E-03, 7.260575E-04, 3.552647E-04, -1.049205E-03, 1.019716E-03, -1.449569E-04, -1.030273E-03, 1.475860E-03, -5.985419E-04, -1.032276E-03, 0.000000E+00],
  [4.829530E+00, 4.664117E+00, 6.251527E+00, 3.800799E+00, -7.553353E-01, -3.539151E+00, -2.560014E+00, 5.199652E-02, 1.035643E+00, 1.951379E-01, -3.950885E-01, -7.239192E-02, 1.671826E-01, -7.114780E-04, -6.854970E-02, 2.168299E-02, 2.060243E-02, -1.790410E-02, 1.550265E-05, 7.529148E-03, -4.865112E-03, 6.269140E-04, 1.698022E-03, -2.881425E-03, 2.998181E-03, -9.227953E-04, -2.856853E-03, 5.249500E-03, -3.294154E-03, -2.339780E-03, 0.000000E+00],
  [6.059118E-01, 2.041443E+00, 3.800799E+00, 2.685303E+00, -2.085047E+00, -6.353636E+00, -5.498074E+00, -8.279405E-01, 1.966085E+00, 8.544007E-01, -7.108698E-01, -3.637815E-01, 3.278985E-01, 9.842713E-02, -1.621516E-01, 7.146916E-03, 6.660208E-02, -3.037822E-02, -1.425443E-02, 1.959631E-02, -5.021536E-03, -3.572779E-03, 3.198531E-03, -2.518066E-03, 4.382146E-03, -3.799815E-03, -2.587010E-03, 1.003761E-02, -9.913156E-03, -5.327422E-04, 0.000000E+00],
  [-3.092660E-01, -4.961162E-01, -7.553353E-01, -2.085047E+00, -5.576360E+00, -9.057892E+00, -8.036586E+00, -2.315491E+00, 2.258242E+00, 1.733276E+00, -6.599903E-01, -7.745290E-01, 3.263493E-01, 2.878748E-01, -2.056385E-01, -6.671655E-02, 1.134898E-01, -1.545570E-02, -4.319314E-02, 2.656288E-02, 5.923767E-03, -1.298573E-02, 1.735394E-03, 4.530068E-03, 1.569212E-03, -8.588680E-03, 4.135788E-03, 9.550774E-03, -1.758218E-02, 8.445699E-03, 0.000000E+00],
  [-4.091000E-01, -1.372985E+00, -3.539151E+00, -6.353636E+00, -9.057892E+00, -1.035261E+01, -8.454554E+00, -3.330886E+00, 1.358775E+00, 1.967351E+00, -9.048569E-02, -8.597263E-01, 5.185466E-02, 3.754631E-01, -9.831259E-02, -1.433613E-01, 9.347673E-02, 2.990692E-02, -5.735200E-02, 1.283743E-02, 2.239049E-02, -1.833489E-02, -3.585972E-03, 1.401917E-02, -4.775235E-03, -1.039335E-02, 1.329869E-02, 3.370814E-04, -1.693014E-02, 1.840217E-02, 0.000000E+00],
  [-1.363188E-01, -7.076574E-01, -2.560014E+00, -5.498074E+00, -8.036586E+00, -8.454554E+00, -6.436208E+00, -3.103572E+00, -1.178161E-01, 1.074458E+00, 4.484274E-01, -3.596207E-01, -2.119453E-01, 1.801244E-01, 6.426102E-02, -1.038472E-01, 5.967710E-03, 4.888745E-02, -2.720552E-02, -1.026555E-02, 2.142743E-02, -9.226722E-03, -6.567592E-03, 1.254047E-02, -6.538569E-03, -4.985594E-03, 1.189844E-02, -7.668935E-03, -4.709688E-03, 1.428018E-02, 0.000000E+00],
  [7.278576E-02, 1.752998E-01, 5.199652E-02, -8.279405E-01, -2.315491E+00, -3.330886E+00, -3.103572E+00, -2.113654E+00, -1.097119E+00, -1.935321E-01, 3.644288E-01, 2.480674E-01, -1.119536E-01, -1.043119E-01, 6.131358E-02, 2.528568E-02, -3.506287E-02, 6.089549E-03, 1.202799E-02, -1.000783E-02, 9.931452E-04, 3.592612E-03, -2.548815E-03, 4.109804E-04, -2.763951E-04, 1.150175E-03, -3.774625E-04, -2.485803E-03, 4.489713E-03, -2.253151E-03, 0.000000E+00],
  [6.783185E-02, 3.118936E-01, 1.035643E+00, 1.966085E+00, 2.258242E+00, 1.358775E+00, -1.178161E-01, -1.097119E+00, -1.238222E+00, -7.957453E-01, -9.928714E-02, 3.301089E-01, 1.764616E-01, -1.166670E-01, -8.021550E-02, 5.562364E-02, 2.092881E-02, -2.733496E-02, 2.189285E-03, 8.736047E-03, -5.242470E-03, 8.009175E-04, 8.027025E-04, -2.270460E-03, 3.567644E-03, -1.517950E-03, -3.801884E-03, 6.664739E-03, -2.071351E-03, -6.754474E-03, 0.000000E+00],
  [-1.348402E-02, -1.024026E-02, 1.951379E-01, 8.544007E-01, 1.733276E+00, 1.967351E+00, 1.074458E+00, -1.935321E-01, -7.957453E-01, -6.796597E-01, -3.382710E-01, 1.856794E-02, 2.136807E-01, 8.250138E-02, -9.861826E-02, -4.338818E-02, 5.108369E-02, 9.116495E-03, -2.547287E-02, 5.066881E-03, 1.004690E-02, -7.396513E-03, -2.471185E-03, 6.820108E-03, -1.730246E-03, -6.033076E-03, 6.483076E-03, 1.977142E-03, -9.724231E-03, 6.745845E-03, 0.000000E+00],
  [-2.550536E-02, -1.182964E-01, -3.950885E-01, -7.108698E-01, -6.599903E-01, -9.048569E-02, 4.484274E-01, 3.644288E-01, -9.928714E-02, -3.382710E-01, -2.883331E-01, -1.586458E-01, 2.451675E-02, 1.358509E-01, 3.240761E-02, -7.611015E-02, -1.444574E-02, 3.950871E-02, -3.225522E-03, -1.536064E-02, 7.446945E-03, 7.641370E-04, -2.228946E-03, 3.740475E-03, -5.020423E-03, 5.745033E-04, 7.216283E-03, -8.433710E-03, -6.548715E-04, 1.076321E-02, 0.000000E+00],
  [5.534979E-03, 7.295160E-03, -7.239192E-02, -3.637815E-01, -7.745290E-01, -8.597263E-01, -3.596207E-01, 2.480674E-01, 3.301089E-01, 1.856794E-02, -1.586458E-01, -1.314818E-01, -7.328646E-02, 2.002945E-02, 8.183954E-02, 8.347788E-03, -5.414643E-02, -3.220477E-05, 3.067578E-02, -8.335285E-03, -1.436776E-02, 1.032065E-02, 4.972142E-03, -9.685316E-03, 6.595502E-04, 8.591058E-03, -6.093740E-03, -4.704305E-03, 1.013808E-02, -3.402811E-03, 0.000000E+00],
  [9.047099E-03, 4.511287E-02, 1.671826E-01, 3.278985E-01, 3.263493E-01, 5.185466E-02, -2.119453E-01, -1.119536E-01, 1.764616E-01, 2.136807E-01, 2.451675E-02, -7.328646E-02, -5.707734E-02, -3.650915E-02, 1.399775E-02, 4.693814E-02, -4.185988E-03, -3.157311E-02, 8.701086E-03, 1.369117E-02, -9.675780E-03, -1.710196E-04, 3.936112E-03, -5.118657E-03, 3.978644E-03, 1.819699E-03, -7.529233E-03, 5.470716E-03, 3.276457E-03, -8.844558E-03, 0.000000E+00],
  [-3.708599E-03, -1.123201E-02, -7.114780E-04, 9.842713E-02, 2.878748E-01, 3.754631E-01, 1.801244E-01, -1.043119E-01, -1.166670E-01, 8.250138E-02, 1.358509E-01, 2.002945E-02, -3.650915E-02, -2.318201E-02, -2.062437E-02, 6.265483E-03, 2.965837E-02, -4.588231E-03, -2.253477E-02, 8.151161E-03, 1.274126E-02, -9.649026E-03, -5.098370E-03, 9.024449E-03, -1.002819E-04, -7.431703E-03, 4.240275E-03, 4.086500E-03, -6.629907E-03, 1.118060E-03, 0.000000E+00],
  [-2.669271E-03, -1.519163E-02, -6.854970E-02, -1.621516E-01, -2.056385E-01, -9.831259E-02, 6.426102E-02, 6.131358E-02, -8.021550E-02, -9.861826E-02, 3.240761E-02, 8.183954E-02, 1.399775E-02, -2.062437E-02, -1.131113E-02, -9.702866E-03, 5.605510E-03, 1.430593E-02, -6.587895E-03, -8.156529E-03, 7.157704E-03, 2.405788E-04, -3.585122E-03, 3.755019E-03, -1.913156E-03, -2.061032E-03, 4.686586E-03, -2.353336E-03, -2.578245E-03, 4.364712E-03, 0.000000E+00],
  [2.324291E-03, 9.342872E-03, 2.168299E-02, 7.146916E-03, -6.671655E-02, -1.433613E-01, -1.038472E-01, 2.528568E-02, 5.562364E-02, -4.338818E-02, -7.611015E-02, 8.347788E-03, 4.693814E-02, 6.265483E-03, -9.702866E-03, -2.566721E-03, -8.336484E-03, 1.631342E-03, 1.221756E-02, -4.512742E-03, -9.271673E-03, 6.934952E-03, 4.279194E-03, -7.103661E-03, 2.018768E-04, 5.243754E-03, -3.056043E-03, -2.095809E-03, 3.480853E-03, -7.639946E-04, 0.000000E+00],
  [2.349811E-04, 2.756578E-03, 2.060243E-02, 6.660208E-02, 1.134898E-01, 9.347673E-02, 5.967710E-03, -3.506287E-02, 2.092881E-02, 5.108369E-02, -1.444574E-02, -5.414643E-02, -4.185988E-03, 2.965837E-02, 5.605510E-03, -8.336484E-03, -2.073254E-03, -1.478689E-03, 1.781518E-03, 2.978505E-03, -2.691281E-03, -6.652149E-04, 1.903406E-03, -1.350816E-03, 2.675539E-04, 1.093227E-03, -1.557810E-03, 3.408409E-04, 1.057493E-03, -8.598699E-04, 0.000000E+00],
  [-1.110236E-03, -5.149938E-03, -1.790410E-02, -3.037822E-02, -1.545570E-02, 2.990692E-02, 4.888745E-02, 6.089549E-03, -2.733496E-02, 9.116495E-03, 3.950871E-02, -3.220477E-05, -3.157311E-02, -4.588231E-03, 1.430593E-02, 1.631342E-03, -1.478689E-03, 1.402541E-04, -4.696492E-03, 1.454628E-03, 5.481405E-03, -3.849852E-03, -3.018510E-03, 4.601638E-03, -1.610401E-04, -3.167458E-03, 1.923267E-03, 7.930186E-04, -1.471962E-03, 4.695449E-04, 0.000000E+00],
  [5.019909E-04, 1.449361E-03, 1.550265E-05, -1.425443E-02, -4.319314E-02, -5.735200E-02, -2.720552E-02, 1.202799E-02, 2.189285E-03, -2.547287E-02, -3.225522E-03, 3.067578E-02, 8.701086E-03, -2.253477E-02, -6.587895E-03, 1.221756E-02, 1.781518E-03, -4.696492E-03, 6.302120E-04, 5.706427E-04, -4.816605E-04, 6.784221E-04, -2.933470E-04, -3.774820E-04, 5.810393E-04, -2.421636E-04, -4.028894E-04, 7.761298E-04, -2.131215E-04, -9.257681E-04, 0.000000E+00],
  [1.931769E-04, 1.434199E-03, 7.529148E-03, 1.959631E-02, 2.656288E-02, 1.283743E-02, -1.026555E-02, -1.000783E-02, 8.736047E-03, 5.066881E-03, -1.536064E-02, -8.335285E-03, 1.369117E-02, 8.151161E-03, -8.156529E-03, -4.512742E-03, 2.978505E-03, 1.454628E-03, 5.706427E-04, -7.806227E-04, -2.046375E-03, 1.591050E-03, 1.544841E-03, -2.119758E-03, -1.809552E-04, 1.554976E-03, -6.156141E-04, -5.612939E-04, 3.988999E-04, 2.553191E-04, 0.000000E+00],
  [-4.037377E-04, -1.716786E-03, -4.865112E-03, -5.021536E-03, 5.923767E-03, 2.239049E-02, 2.142743E-02, 9.931452E-04, -5.242470E-03, 1.004690E-02, 7.446945E-03, -1.436776E-02, -9.675780E-03, 1.274126E-02, 7.157704E-03, -9.271673E-03, -2.691281E-03, 5.481405E-03, -4.816605E-04, -2.046375E-03, 1.259388E-03, -1.876412E-04, -3.909515E-04, 7.526583E-04, -7.046627E-04, 2.568990E-06, 9.230468E-04, -1.095440E-03, 7.571948E-05, 1.241196E-03, 0.000000E+00],
  [2.582418E-04, 7.260575E-04, 6.269140E-04, -3.572779E-03, -1.298573E-02, -1.833489E-02, -9.226722E-03, 3.592612E-03, 8.009175E-04, -7.396513E-03, 7.641370E-04, 1.032065E-02, -1.710196E-04, -9.649026E-03, 2.405788E-04, 6.934952E-03, -6.652149E-04, -3.849852E-03, 6.784221E-04, 1.591050E-03, -1.876412E-04, -5.524082E-04, -3.311190E-04, 3.991296E-04, 5.310173E-04, -5.990427E-04, -4.140187E-04, 8.738476E-04, -3.676735E-05, -9.375889E-04, 0.000000E+00],
  [7.556362E-06, 3.552647E-04, 1.698022E-03, 3.198531E-03, 1.735394E-03, -3.585972E-03, -6.567592E-03, -2.548815E-03, 8.027025E-04, -2.471185E-03, -2.228946E-03, 4.972142E-03, 3.936112E-03, -5.098370E-03, -3.585122E-03, 4.279194E-03, 1.903406E-03, -3.018510E-03, -2.933470E-04, 1.544841E-03, -3.909515E-04, -3.311190E-04, 1.498323E-04, -1.328383E-04, 3.805174E-04, -1.960420E-04, -4.481355E-04, 7.339763E-04, -1.708899E-04, -6.749192E-04, 0.000000E+00],
  [-2.219164E-04, -1.049205E-03, -2.881425E-03, -2.518066E-03, 4.530068E-03, 1.401917E-02, 1.254047E-02, 4.109804E-04, -2.270460E-03, 6.820108E-03, 3.740475E-03, -9.685316E-03, -5.118657E-03, 9.024449E-03, 3.755019E-03, -7.103661E-03, -1.350816E-03, 4.601638E-03, -3.774820E-04, -2.119758E-03, 7.526583E-04, 3.991296E-04, -1.328383E-04, 1.414860E-04, -6.188745E-04, 3.203331E-04, 7.189027E-04, -1.060525E-03, 8.101927E-05, 1.108034E-03, 0.000000E+00],
  [2.479303E-04, 1.019716E-03, 2.998181E-03, 4.382146E-03, 1.569212E-03, -4.775235E-03, -6.538569E-03, -2.763951E-04, 3.567644E-03, -1.730246E-03, -5.020423E-03, 6.595502E-04, 3.978644E-03, -1.002819E-04, -1.913156E-03, 2.018768E-04, 2.675539E-04, -1.610401E-04, 5.810393E-04, -1.809552E-04, -7.046627E-04, 5.310173E-04, 3.805174E-04, -6.188745E-04, 3.496635E-05, 4.104855E-04, -2.545383E-04, -8.771507E-05, 1.802833E-04, -8.109527E-05, 0.000000E+00],
  [-5.119125E-05, -1.449569E-04, -9.227953E-04, -3.799815E-03, -8.588680E-03, -1.039335E-02, -4.985594E-03, 1.150175E-03, -1.517950E-03, -6.033076E-03, 5.745033E-04, 8.591058E-03, 1.819699E-03, -7.431703E-03, -2.061032E-03, 5.243754E-03, 1.093227E-03, -3.167458E-03, -2.421636E-04, 1.554976E-03, 2.568990E-06, -5.990427E-04, -1.960420E-04, 3.203331E-04, 4.104855E-04, -5.211933E-04, -3.014470E-04, 8.159422E-04, -2.324603E-04, -7.087166E-04, 0.000000E+00],
  [-2.155675E-04, -1.030273E-03, -2.856853E-03, -2.587010E-03, 4.135788E-03, 1.329869E-02, 1.189844E-02, -3.774625E-04, -3.801884E-03, 6.483076E-03, 7.216283E-03, -6.093740E-03, -7.529233E-03, 4.240275E-03, 4.686586E-03, -3.056043E-03, -1.557810E-03, 1.923267E-03, -4.028894E-04, -6.156141E-04, 9.230468E-04, -4.140187E-04, -4.481355E-04, 7.189027E-04, -2.545383E-04, -3.014470E-04, 4.972410E-04, -3.350765E-04, -5.254653E-05, 4.624170E-04, 0.000000E+00],
  [3.010688E-04, 1.475860E-03, 5.249500E-03, 1.003761E-02, 9.550774E-03, 3.370814E-04, -7.668935E-03, -2.485803E-03, 6.664739E-03, 1.977142E-03, -8.433710E-03, -4.704305E-03, 5.470716E-03, 4.086500E-03, -2.353336E-03, -2.095809E-03, 3.408409E-04, 7.930186E-04, 7.761298E-04, -5.612939E-04, -1.095440E-03, 8.738476E-04, 7.339763E-04, -1.060525E-03, -8.771507E-05, 8.159422E-04, -3.350765E-04, -3.553678E-04, 3.355564E-04, 9.583414E-05, 0.000000E+00],
  [-8.766146E-05, -5.985419E-04, -3.294154E-03, -9.913156E-03, -1.758218E-02, -1.693014E-02, -4.709688E-03, 4.489713E-03, -2.071351E-03, -9.724231E-03, -6.548715E-04, 1.013808E-02, 3.276457E-03, -6.629907E-03, -2.578245E-03, 3.480853E-03, 1.057493E-03, -1.471962E-03, -2.131215E-04, 3.988999E-04, 7.571948E-05, -3.676735E-05, -1.708899E-04, 8.101927E-05, 1.802833E-04, -2.324603E-04, -5.254653E-05, 3.355564E-04, -1.970721E-04, -2.633996E-04, 0.000000E+00],
  [-2.654556E-04, -1.032276E-03, -2.339780E-03, -5.327422E-04, 8.445699E-03, 1.840217E-02, 1.428018E-02, -2.253151E-03, -6.754474E-03, 6.745845E-03, 1.076321E-02, -3.402811E-03, -8.844558E-03, 1.118060E-03, 4.364712E-03, -7.639946E-04, -8.598699E-04, 4.695449E-04, -9.257681E-04, 2.553191E-04, 1.241196E-03, -9.375889E-04, -6.749192E-04, 1.108034E-03, -8.109527E-05, -7.087166E-04, 4.624170E-04, 9.583414E-05, -2.633996E-04, 1.721922E-04, 0.000000E+00],
  [0.000000E+00, 0.000000E+00, 0.000000E+00, 0.000000E+00, 0.000000E+00, 0.000000E+00, 0.000000E+00, 0.000000E+00, 0.000000E+00, 0.000000E+00, 0.000000E+00, 0.000000E+00, 0.000000E+00, 0.000000E+00, 0.000000E+00, 0.000000E+00, 0.000000E+00, 0.000000E+00, 0.000000E+00, 0.000000E+00, 0.000000E+00, 0.000000E+00, 0.000000E+00, 0.000000E+00, 0.000000E+00, 0.000000E+00, 0.000000E+00, 0.000000E+00, 0.000000E+00, 0.000000E+00, 0.000000E+00]]

/-- `Daejeon16_public_v2.f90` 169-201. -/
def unc1d2 : List (List Num) := [
  [-1.399366E+00, -1.181347E+00, -5.732722E-01, -8.764798E-02, 1.122767E-01, 9.363236E-02, 5.652015E-03, -2.880652E-02, -5.548013E-03, 9.705204E-03, 9.860684E-04, -3.522016E-03, 5.126583E-04, 1.093279E-03, -5.685563E-04, -1.859802E-04, 3.104533E-04, -7.723863E-05, -1.042668E-04, 1.114198E-04, -2.092276E-05, -5.747633E-05, 6.505335E-05, -1.219341E-05, -4.424349E-05, 5.052823E-05, -1.508877E-06, -5.514153E-05, 6.171286E-05, -3.908932E-06, 0.000000E+00],
  [-1.181347E+00, -1.880755E+00, -1.507632E+00, -5.421109E-01, 2.657731E-01, 4.472674E-01, 1.517343E-01, -1.001272E-01, -7.151917E-02, 2.946116E-02, 2.375774E-02, -1.333037E-02, -5.771466E-03, 6.351810E-03, 4.780489E-05, -2.391340E-03, 1.018979E-03, 4.506914E-04, -6.884862E-04, 2.517359E-04, 1.663400E-04, -3.246628E-04, 2.312861E-04, 2.873474E-05, -2.880788E-04, 3.380793E-04, -9.313825E-05, -2.854010E-04, 4.782383E-04, -2.736785E-04, 0.000000E+00],
  [-5.732722E-01, -1.507632E+00, -1.914352E+00, -1.040062E+00, 4.329032E-01, 1.167843E+00, 6.923881E-01, -1.025924E-01, -2.770062E-01, -3.861859E-03, 9.828870E-02, -5.657537E-03, -3.477671E-02, 9.991066E-03, 1.007297E-02, -7.254118E-03, -9.956923E-04, 3.258836E-03, -1.229390E-03, -5.713499E-04, 8.150645E-04, -4.359674E-04, 1.966640E-04, 4.292116E-06, -4.176068E-04, 8.018485E-04, -6.163124E-04, -2.830757E-04, 1.273107E-03, -1.394418E-03, 0.000000E+00],
  [-8.764798E-02, -5.421109E-01, -1.040062E+00, -6.218953E-01, 9.396389E-01, 2.200551E+00, 1.763092E+00, 2.493192E-01, -5.594380E-01, -2.243645E-01, 1.812520E-01, 8.038530E-02, -7.563611E-02, -1.611682E-02, 3.311028E-02, -4.260271E-03, -1.161776E-02, 6.613025E-03, 1.800634E-03, -3.676690E-03, 1.036923E-03, 1.109304E-03, -8.527293E-04, -4.682648E-04, 8.168703E-04, 3.454006E-04, -1.669424E-03, 1.364043E-03, 8.415906E-04, -3.086405E-03, 0.000000E+00],
  [1.122767E-01, 2.657731E-01, 4.329032E-01, 9.396389E-01, 2.169224E+00, 3.423749E+00, 3.131428E+00, 1.140565E+00, -5.990650E-01, -6.426914E-01, 1.021901E-01, 2.473409E-01, -5.054753E-02, -8.735090E-02, 3.937670E-02, 2.294473E-02, -2.446657E-02, 8.496528E-04, 1.030839E-02, -6.147277E-03, -1.319118E-03, 4.428630E-03, -2.668112E-03, -1.117154E-03, 3.512064E-03, -2.345770E-03, -1.605956E-03, 4.666086E-03, -3.278327E-03, -2.198234E-03, 0.000000E+00],
  [9.363236E-02, 4.472674E-01, 1.167843E+00, 2.200551E+00, 3.423749E+00, 4.432226E+00, 4.250615E+00, 2.317263E+00, -8.051772E-02, -9.491702E-01, -2.512570E-01, 3.273481E-01, 1.034505E-01, -1.351071E-01, -1.568641E-02, 5.743348E-02, -1.336939E-02, -1.773929E-02, 1.399573E-02, -5.943942E-04, -5.238106E-03, 4.507473E-03, -2.366922E-03, -2.305905E-04, 3.622730E-03, -5.339221E-03, 2.139376E-03, 4.764464E-03, -8.914948E-03, 4.684843E-03, 0.000000E+00],
  [5.652015E-03, 1.517343E-01, 6.923881E-01, 1.763092E+00, 3.131428E+00, 4.250615E+00, 4.424802E+00, 3.136015E+00, 8.694424E-01, -7.323301E-01, -6.594078E-01, 1.232794E-01, 2.726911E-01, -5.157631E-02, -1.004322E-01, 4.142605E-02, 2.778538E-02, -2.650277E-02, -4.955847E-04, 1.088140E-02, -4.255773E-03, -2.709785E-03, 1.728716E-03, 2.591615E-03, -2.366239E-03, -3.321701E-03, 7.320951E-03, -2.902888E-03, -7.369718E-03, 1.271738E-02, 0.000000E+00],
  [-2.880652E-02, -1.001272E-01, -1.025924E-01, 2.493192E-01, 1.140565E+00, 2.317263E+00, 3.136015E+00, 2.954256E+00, 1.642293E+00, 1.039023E-02, -6.945564E-01, -2.658913E-01, 2.295194E-01, 1.253114E-01, -9.758534E-02, -3.539836E-02, 4.771443E-02, -1.537760E-03, -1.942591E-02, 1.063705E-02, 3.171684E-03, -8.475792E-03, 4.702922E-03, 3.123111E-03, -7.774439E-03, 3.998336E-03, 5.623208E-03, -1.097505E-02, 4.370731E-03, 9.452187E-03, 0.000000E+00],
  [-5.548013E-03, -7.151917E-02, -2.770062E-01, -5.594380E-01, -5.990650E-01, -8.051772E-02, 8.694424E-01, 1.642293E+00, 1.613443E+00, 7.376654E-01, -2.337515E-01, -4.543068E-01, -4.284146E-02, 1.888124E-01, 2.515479E-02, -7.940100E-02, 3.632810E-03, 3.018045E-02, -1.131374E-02, -6.363398E-03, 6.078171E-03, -1.238280E-03, 1.122930E-03, -1.705736E-03, -2.357322E-03, 7.225044E-03, -4.510116E-03, -5.915668E-03, 1.281207E-02, -6.073676E-03, 0.000000E+00],
  [9.705204E-03, 2.946116E-02, -3.861859E-03, -2.243645E-01, -6.426914E-01, -9.491702E-01, -7.323301E-01, 1.039023E-02, 7.376654E-01, 8.508846E-01, 3.191994E-01, -2.340055E-01, -2.534860E-01, 4.332424E-02, 1.193762E-01, -1.943263E-02, -4.913391E-02, 1.827928E-02, 1.585949E-02, -1.409802E-02, -1.534117E-03, 8.869739E-03, -3.981554E-03, -5.122203E-03, 7.497652E-03, 3.644590E-04, -9.577408E-03, 7.990557E-03, 4.655399E-03, -1.449008E-02, 0.000000E+00],
  [9.860684E-04, 2.375774E-02, 9.828870E-02, 1.812520E-01, 1.021901E-01, -2.512570E-01, -6.594078E-01, -6.945564E-01, -2.337515E-01, 3.191994E-01, 4.547743E-01, 1.360799E-01, -1.723711E-01, -1.268259E-01, 5.905189E-02, 6.235518E-02, -2.946139E-02, -2.200597E-02, 1.709600E-02, 2.488214E-03, -6.355787E-03, 3.120025E-03, -2.220333E-03, 1.554888E-04, 5.194705E-03, -6.881527E-03, -4.530116E-04, 9.933859E-03, -9.233943E-03, -3.178574E-03, 0.000000E+00],
  [-3.522016E-03, -1.333037E-02, -5.657537E-03, 8.038530E-02, 2.473409E-01, 3.273481E-01, 1.232794E-01, -2.658913E-01, -4.543068E-01, -2.340055E-01, 1.360799E-01, 2.500516E-01, 5.893948E-02, -1.133406E-01, -5.959356E-02, 4.927841E-02, 2.966077E-02, -2.581093E-02, -9.693233E-03, 1.464994E-02, 6.963121E-04, -8.561354E-03, 2.635774E-03, 5.915311E-03, -5.454564E-03, -3.359011E-03, 8.799023E-03, -2.764755E-03, -8.258106E-03, 1.056129E-02, 0.000000E+00],
  [5.126583E-04, -5.771466E-03, -3.477671E-02, -7.563611E-02, -5.054753E-02, 1.034505E-01, 2.726911E-01, 2.295194E-01, -4.284146E-02, -2.534860E-01, -1.723711E-01, 5.893948E-02, 1.405298E-01, 2.438858E-02, -7.056706E-02, -2.442572E-02, 3.437458E-02, 9.565831E-03, -1.700327E-02, 6.290501E-04, 5.943281E-03, -3.783817E-03, 1.824602E-03, 1.181717E-03, -5.332431E-03, 4.434155E-03, 3.075601E-03, -8.584719E-03, 4.055803E-03, 6.310176E-03, 0.000000E+00],
  [1.093279E-03, 6.351810E-03, 9.991066E-03, -1.611682E-02, -8.735090E-02, -1.351071E-01, -5.157631E-02, 1.253114E-01, 1.888124E-01, 4.332424E-02, -1.268259E-01, -1.133406E-01, 2.438858E-02, 8.002580E-02, 1.082751E-02, -4.275546E-02, -1.045589E-02, 2.266720E-02, 4.028797E-03, -1.257534E-02, 1.200470E-05, 7.517994E-03, -1.828731E-03, -5.439765E-03, 3.721384E-03, 3.836582E-03, -6.367662E-03, 2.836675E-05, 7.131830E-03, -5.787606E-03, 0.000000E+00],
  [-5.685563E-04, 4.780489E-05, 1.007297E-02, 3.311028E-02, 3.937670E-02, -1.568641E-02, -1.004322E-01, -9.758534E-02, 2.515479E-02, 1.193762E-01, 5.905189E-02, -5.959356E-02, -7.056706E-02, 1.082751E-02, 4.577949E-02, 2.936247E-03, -2.491847E-02, -1.500323E-03, 1.254997E-02, -2.063729E-03, -4.533303E-03, 3.343169E-03, -1.109528E-03, -1.533510E-03, 4.011270E-03, -2.337206E-03, -3.147909E-03, 5.683341E-03, -1.216915E-03, -5.292702E-03, 0.000000E+00],
  [-1.859802E-04, -2.391340E-03, -7.254118E-03, -4.260271E-03, 2.294473E-02, 5.743348E-02, 4.142605E-02, -3.539836E-02, -7.940100E-02, -1.943263E-02, 6.235518E-02, 4.927841E-02, -2.442572E-02, -4.275546E-02, 2.936247E-03, 2.675639E-02, 2.206850E-03, -1.555151E-02, -1.342510E-03, 9.321343E-03, -2.318395E-04, -6.045020E-03, 1.406375E-03, 4.417984E-03, -2.738625E-03, -3.040497E-03, 4.367419E-03, 4.677883E-04, -4.867678E-03, 3.145583E-03, 0.000000E+00],
  [3.104533E-04, 1.018979E-03, -9.956923E-04, -1.161776E-02, -2.446657E-02, -1.336939E-02, 2.778538E-02, 4.771443E-02, 3.632810E-03, -4.913391E-02, -2.946139E-02, 2.966077E-02, 3.437458E-02, -1.045589E-02, -2.491847E-02, 2.206850E-03, 1.459486E-02, -9.981652E-04, -7.559378E-03, 1.861091E-03, 2.823939E-03, -2.220720E-03, 5.754379E-04, 1.122645E-03, -2.454245E-03, 1.177499E-03, 2.146765E-03, -3.294553E-03, 3.004633E-04, 3.343884E-03, 0.000000E+00],
  [-7.723863E-05, 4.506914E-04, 3.258836E-03, 6.613025E-03, 8.496528E-04, -1.773929E-02, -2.650277E-02, -1.537760E-03, 3.018045E-02, 1.827928E-02, -2.200597E-02, -2.581093E-02, 9.565831E-03, 2.266720E-02, -1.500323E-03, -1.555151E-02, -9.981652E-04, 9.876728E-03, 8.202365E-04, -6.505552E-03, 9.854841E-05, 4.606773E-03, -1.112930E-03, -3.368237E-03, 2.181383E-03, 2.059826E-03, -3.102555E-03, -1.308834E-04, 3.073201E-03, -2.073547E-03, 0.000000E+00],
  [-1.042668E-04, -6.884862E-04, -1.229390E-03, 1.800634E-03, 1.030839E-02, 1.399573E-02, -4.955847E-04, -1.942591E-02, -1.131374E-02, 1.585949E-02, 1.709600E-02, -9.693233E-03, -1.700327E-02, 4.028797E-03, 1.254997E-02, -1.342510E-03, -7.559378E-03, 8.202365E-04, 3.885409E-03, -9.965328E-04, -1.444455E-03, 1.033389E-03, -2.435539E-04, -4.850249E-04, 1.189747E-03, -6.359529E-04, -1.060229E-03, 1.694199E-03, -1.706457E-04, -1.709391E-03, 0.000000E+00],
  [1.114198E-04, 2.517359E-04, -5.713499E-04, -3.676690E-03, -6.147277E-03, -5.943942E-04, 1.088140E-02, 1.063705E-02, -6.363398E-03, -1.409802E-02, 2.488214E-03, 1.464994E-02, 6.290501E-04, -1.257534E-02, -2.063729E-03, 9.321343E-03, 1.861091E-03, -6.505552E-03, -9.965328E-04, 4.624103E-03, 5.239202E-05, -3.448867E-03, 8.894452E-04, 2.493154E-03, -1.777099E-03, -1.312157E-03, 2.308216E-03, -2.359551E-04, -1.941860E-03, 1.637707E-03, 0.000000E+00],
  [-2.092276E-05, 1.663400E-04, 8.150645E-04, 1.036923E-03, -1.319118E-03, -5.238106E-03, -4.255773E-03, 3.171684E-03, 6.078171E-03, -1.534117E-03, -6.355787E-03, 6.963121E-04, 5.943281E-03, 1.200470E-05, -4.533303E-03, -2.318395E-04, 2.823939E-03, 9.854841E-05, -1.444455E-03, 5.239202E-05, 5.340276E-04, -7.316663E-05, 1.176944E-05, -6.994004E-05, -2.747921E-04, 3.662280E-04, 1.944545E-04, -6.251315E-04, 2.256933E-04, 5.192913E-04, 0.000000E+00],
  [-5.747633E-05, -3.246628E-04, -4.359674E-04, 1.109304E-03, 4.428630E-03, 4.507473E-03, -2.709785E-03, -8.475792E-03, -1.238280E-03, 8.869739E-03, 3.120025E-03, -8.561354E-03, -3.783817E-03, 7.517994E-03, 3.343169E-03, -6.045020E-03, -2.220720E-03, 4.606773E-03, 1.033389E-03, -3.448867E-03, -7.316663E-05, 2.591713E-03, -7.160316E-04, -1.837303E-03, 1.400393E-03, 8.767444E-04, -1.741624E-03, 3.429332E-04, 1.315241E-03, -1.311786E-03, 0.000000E+00],
  [6.505335E-05, 2.312861E-04, 1.966640E-04, -8.527293E-04, -2.668112E-03, -2.366922E-03, 1.728716E-03, 4.702922E-03, 1.122930E-03, -3.981554E-03, -2.220333E-03, 2.635774E-03, 1.824602E-03, -1.828731E-03, -1.109528E-03, 1.406375E-03, 5.754379E-04, -1.112930E-03, -2.435539E-04, 8.894452E-04, 1.176944E-05, -7.160316E-04, 2.038856E-04, 5.222210E-04, -3.992529E-04, -2.380105E-04, 4.743566E-04, -1.029870E-04, -3.310459E-04, 3.448164E-04, 0.000000E+00],
  [-1.219341E-05, 2.873474E-05, 4.292116E-06, -4.682648E-04, -1.117154E-03, -2.305905E-04, 2.591615E-03, 3.123111E-03, -1.705736E-03, -5.122203E-03, 1.554888E-04, 5.915311E-03, 1.181717E-03, -5.439765E-03, -1.533510E-03, 4.417984E-03, 1.122645E-03, -3.368237E-03, -4.850249E-04, 2.493154E-03, -6.994004E-05, -1.837303E-03, 5.222210E-04, 1.310897E-03, -9.377361E-04, -7.013166E-04, 1.205011E-03, -1.134306E-04, -9.990378E-04, 8.435174E-04, 0.000000E+00],
  [-4.424349E-05, -2.880788E-04, -4.176068E-04, 8.168703E-04, 3.512064E-03, 3.622730E-03, -2.366239E-03, -7.774439E-03, -2.357322E-03, 7.497652E-03, 5.194705E-03, -5.454564E-03, -5.332431E-03, 3.721384E-03, 4.011270E-03, -2.738625E-03, -2.454245E-03, 2.181383E-03, 1.189747E-03, -1.777099E-03, -2.747921E-04, 1.400393E-03, -3.992529E-04, -9.377361E-04, 8.716811E-04, 2.837656E-04, -9.910875E-04, 4.727260E-04, 5.535349E-04, -9.079537E-04, 0.000000E+00],
  [5.052823E-05, 3.380793E-04, 8.018485E-04, 3.454006E-04, -2.345770E-03, -5.339221E-03, -3.321701E-03, 3.998336E-03, 7.225044E-03, 3.644590E-04, -6.881527E-03, -3.359011E-03, 4.434155E-03, 3.836582E-03, -2.337206E-03, -3.040497E-03, 1.177499E-03, 2.059826E-03, -6.359529E-04, -1.312157E-03, 3.662280E-04, 8.767444E-04, -2.380105E-04, -7.013166E-04, 2.837656E-04, 6.121800E-04, -5.120008E-04, -3.627594E-04, 7.264043E-04, -1.375605E-04, 0.000000E+00],
  [-1.508877E-06, -9.313825E-05, -6.163124E-04, -1.669424E-03, -1.605956E-03, 2.139376E-03, 7.320951E-03, 5.623208E-03, -4.510116E-03, -9.577408E-03, -4.530116E-04, 8.799023E-03, 3.075601E-03, -6.367662E-03, -3.147909E-03, 4.367419E-03, 2.146765E-03, -3.102555E-03, -1.060229E-03, 2.308216E-03, 1.944545E-04, -1.741624E-03, 4.743566E-04, 1.205011E-03, -9.910875E-04, -5.120008E-04, 1.217273E-03, -3.543816E-04, -8.746860E-04, 1.019187E-03, 0.000000E+00],
  [-5.514153E-05, -2.854010E-04, -2.830757E-04, 1.364043E-03, 4.666086E-03, 4.764464E-03, -2.902888E-03, -1.097505E-02, -5.915668E-03, 7.990557E-03, 9.933859E-03, -2.764755E-03, -8.584719E-03, 2.836675E-05, 5.683341E-03, 4.677883E-04, -3.294553E-03, -1.308834E-04, 1.694199E-03, -2.359551E-04, -6.251315E-04, 3.429332E-04, -1.029870E-04, -1.134306E-04, 4.727260E-04, -3.627594E-04, -3.543816E-04, 7.657603E-04, -2.210919E-04, -6.626392E-04, 0.000000E+00],
  [6.171286E-05, 4.782383E-04, 1.273107E-03, 8.415906E-04, -3.278327E-03, -8.914948E-03, -7.369718E-03, 4.370731E-03, 1.281207E-02, 4.655399E-03, -9.233943E-03, -8.258106E-03, 4.055803E-03, 7.131830E-03, -1.216915E-03, -4.867678E-03, 3.004633E-04, 3.073201E-03, -1.706457E-04, -1.941860E-03, 2.256933E-04, 1.315241E-03, -3.310459E-04, -9.990378E-04, 5.535349E-04, 7.264043E-04, -8.746860E-04, -2.210919E-04, 1.006026E-03, -5.046540E-04, 0.000000E+00],
  [-3.908932E-06, -2.736785E-04, -1.394418E-03, -3.086405E-03, -2.198234E-03, 4.684843E-03, 1.271738E-02, 9.452187E-03, -6.073676E-03, -1.449008E-02, -3.178574E-03, 1.056129E-02, 6.310176E-03, -5.787606E-03, -5.292702E-03, 3.145583E-03, 3.343884E-03, -2.073547E-03, -1.709391E-03, 1.637707E-03, 5.192913E-04, -1.311786E-03, 3.448164E-04, 8.435174E-04, -9.079537E-04, -1.375605E-04, 1.019187E-03, -6.626392E-04, -5.046540E-04, 1.091926E-03, 0.000000E+00],
  [0.000000E+00, 0.000000E+00, 0.000000E+00, 0.000000E+00, 0.000000E+00, 0.000000E+00, 0.000000E+00, 0.000000E+00, 0.000000E+00, 0.000000E+00, 0.000000E+00, 0.000000E+00, 0.000000E+00, 0.000000E+00, 0.000000E+00, 0.000000E+00, 0.000000E+00, 0.000000E+00, 0.000000E+00, 0.000000E+00, 0.000000E+00, 0.000000E+00, 0.000000E+00, 0.000000E+00, 0.000000E+00, 0.000000E+00, 0.000000E+00, 0.000000E+00, 0.000000E+00, 0.000000E+00, 0.000000E+00]]

/-- `Daejeon16_public_v2.f90` 202-234. -/
def unc3d2 : List (List Num) := [
  [-2.604520E-03, -1.618100E+00, 2.906627E+00, -2.393135E-01, 2.776390E-01, 9.822253E-02, -4.210775E-02, -2.214572E-02, 9.743540E-03, 4.335757E-03, -2.915082E-03, -5.863303E-04, 8.540682E-04, 1.063496E-05, -2.593340E-04, -3.657483E-07, 1.900178E-04, -1.100130E-04, -8.682313E-05, 1.903229E-04, -1.282157E-04, -1.878290E-05, 1.224313E-04, -1.200304E-04, 4.662728E-05, 1.959451E-05, -3.349762E-05, 1.203713E-05, -1.901393E-06, 2.674750E-05, 0.000000E+00],
  [-1.618100E+00, -1.200635E+01, -4.463488E+00, -1.242633E+00, 3.139803E-01, 3.426651E-01, -1.334218E-02, -8.133951E-02, 3.019980E-03, 2.061966E-02, -3.260296E-03, -5.148063E-03, 2.004487E-03, 1.093554E-03, -9.602057E-04, -1.244913E-04, 4.834517E-04, -1.648366E-04, -2.124712E-04, 2.850522E-04, -8.013916E-05, -1.627457E-04, 2.286995E-04, -8.783368E-05, -1.087191E-04, 1.791519E-04, -7.286298E-05, -9.546721E-05, 1.598325E-04, -5.549263E-05, 0.000000E+00],
  [2.906627E+00, -4.463488E+00, -5.402868E+00, -3.124102E+00, -3.025148E-01, 6.952000E-01, 2.553194E-01, -1.502472E-01, -7.975963E-02, 4.462401E-02, 1.967986E-02, -1.656965E-02, -2.813289E-03, 6.118667E-03, -9.109083E-04, -1.824158E-03, 1.046996E-03, 2.813314E-04, -6.399663E-04, 2.527319E-04, 2.501507E-04, -4.793952E-04, 3.166164E-04, 1.214624E-04, -5.198834E-04, 5.497541E-04, -1.386562E-04, -4.231396E-04, 6.850113E-04, -4.054444E-04, 0.000000E+00],
  [-2.393135E-01, -1.242633E+00, -3.124102E+00, -3.411123E+00, -1.403148E+00, 4.880776E-01, 6.523240E-01, -8.698802E-03, -2.105327E-01, -1.838365E-03, 6.907685E-02, -8.374221E-03, -2.190541E-02, 8.289943E-03, 5.371661E-03, -4.817812E-03, -2.487504E-04, 2.024079E-03, -8.586806E-04, -4.277813E-04, 7.068743E-04, -4.097837E-04, 7.293555E-05, 2.219886E-04, -5.134474E-04, 6.223153E-04, -2.938039E-04, -4.147113E-04, 1.010746E-03, -9.224351E-04, 0.000000E+00],
  [2.776390E-01, 3.139803E-01, -3.025148E-01, -1.403148E+00, -1.440840E+00, -1.716484E-01, 6.567140E-01, 3.069841E-01, -1.920505E-01, -1.280150E-01, 7.291497E-02, 3.883927E-02, -3.384960E-02, -6.351375E-03, 1.485885E-02, -2.668344E-03, -4.955793E-03, 3.242012E-03, 6.380136E-04, -1.759948E-03, 5.751134E-04, 5.788429E-04, -5.587091E-04, -1.246306E-04, 4.472803E-04, -3.861147E-05, -5.586900E-04, 5.508544E-04, 2.336895E-04, -1.093670E-03, 0.000000E+00],
  [9.822253E-02, 3.426651E-01, 6.952000E-01, 4.880776E-01, -1.716484E-01, -3.122846E-01, 2.198327E-01, 4.044932E-01, 2.747705E-02, -1.766132E-01, -1.668369E-02, 7.195596E-02, -5.220671E-03, -2.727317E-02, 1.042338E-02, 7.352374E-03, -7.432978E-03, 2.714010E-04, 3.265644E-03, -2.009882E-03, -5.008979E-04, 1.619476E-03, -9.614572E-04, -4.677897E-04, 1.358672E-03, -9.594801E-04, -4.016543E-04, 1.521498E-03, -1.300495E-03, -2.323972E-04, 0.000000E+00],
  [-4.210775E-02, -1.334218E-02, 2.553194E-01, 6.523240E-01, 6.567140E-01, 2.198327E-01, -3.067319E-03, 1.696376E-01, 1.734693E-01, -5.262698E-02, -9.539276E-02, 2.581013E-02, 3.746926E-02, -1.884975E-02, -9.884106E-03, 1.132832E-02, -6.387923E-04, -4.446356E-03, 2.612683E-03, 3.315273E-04, -1.291973E-03, 8.660441E-04, -2.962912E-04, -1.587699E-04, 6.589228E-04, -9.300167E-04, 4.548243E-04, 6.981776E-04, -1.595624E-03, 1.212044E-03, 0.000000E+00],
  [-2.214572E-02, -8.133951E-02, -1.502472E-01, -8.698802E-03, 3.069841E-01, 4.044932E-01, 1.696376E-01, 1.689112E-02, 9.271316E-02, 7.129985E-02, -5.286498E-02, -4.442500E-02, 2.890625E-02, 1.505827E-02, -1.633193E-02, -9.607745E-04, 7.297771E-03, -2.849161E-03, -1.849639E-03, 2.274052E-03, -2.844974E-04, -1.082167E-03, 7.429103E-04, 3.982841E-04, -9.148180E-04, 2.573881E-04, 8.399494E-04, -1.135728E-03, 1.484595E-04, 1.265603E-03, 0.000000E+00],
  [9.743540E-03, 3.019980E-03, -7.975963E-02, -2.105327E-01, -1.920505E-01, 2.747705E-02, 1.734693E-01, 9.271316E-02, 1.511503E-02, 5.004729E-02, 2.482427E-02, -3.954282E-02, -1.638826E-02, 2.254939E-02, 3.010635E-03, -1.090726E-02, 2.748141E-03, 3.389136E-03, -2.906345E-03, 2.907843E-04, 1.073688E-03, -1.045656E-03, 4.838988E-04, 2.115337E-04, -8.375954E-04, 9.244244E-04, -1.321480E-04, -1.051591E-03, 1.479925E-03, -4.871981E-04, 0.000000E+00],
  [4.335757E-03, 2.061966E-02, 4.462401E-02, -1.838365E-03, -1.280150E-01, -1.766132E-01, -5.262698E-02, 7.129985E-02, 5.004729E-02, 7.388909E-03, 2.395865E-02, 6.793781E-03, -2.433778E-02, -3.687261E-03, 1.430745E-02, -1.684734E-03, -6.124321E-03, 3.081725E-03, 1.383279E-03, -2.024906E-03, 3.241511E-04, 8.700480E-04, -5.542773E-04, -4.065071E-04, 6.952691E-04, 4.485394E-05, -9.049795E-04, 7.665513E-04, 3.831334E-04, -1.349175E-03, 0.000000E+00],
  [-2.915082E-03, -3.260296E-03, 1.967986E-02, 6.907685E-02, 7.291497E-02, -1.668369E-02, -9.539276E-02, -5.286498E-02, 2.482427E-02, 2.395865E-02, 2.833547E-03, 1.219926E-02, 9.727913E-04, -1.406190E-02, 9.669893E-04, 8.125905E-03, -2.951004E-03, -2.743246E-03, 2.537563E-03, -1.841720E-04, -9.373855E-04, 8.464497E-04, -3.915775E-04, -2.021912E-04, 7.594307E-04, -7.441198E-04, -7.509979E-05, 1.012745E-03, -1.035726E-03, -3.607486E-05, 0.000000E+00],
  [-5.863303E-04, -5.148063E-03, -1.656965E-02, -8.374221E-03, 3.883927E-02, 7.195596E-02, 2.581013E-02, -4.442500E-02, -3.954282E-02, 6.793781E-03, 1.219926E-02, 1.235452E-03, 6.311273E-03, -6.588451E-04, -7.810854E-03, 1.999825E-03, 4.382223E-03, -2.540461E-03, -1.292045E-03, 1.789808E-03, -1.269645E-04, -8.891813E-04, 4.399109E-04, 4.547713E-04, -5.868317E-04, -1.420785E-04, 7.638720E-04, -4.591641E-04, -4.597895E-04, 9.396287E-04, 0.000000E+00],
  [8.540682E-04, 2.004487E-03, -2.813289E-03, -2.190541E-02, -3.384960E-02, -5.220671E-03, 3.746926E-02, 2.890625E-02, -1.638826E-02, -2.433778E-02, 9.727913E-04, 6.311273E-03, 5.346761E-04, 3.357969E-03, -9.429856E-04, -4.145361E-03, 1.922330E-03, 1.956651E-03, -1.836324E-03, -5.324327E-05, 8.108002E-04, -5.645165E-04, 1.978087E-04, 1.828321E-04, -5.445842E-04, 4.785620E-04, 1.362120E-04, -7.037818E-04, 5.604441E-04, 1.778235E-04, 0.000000E+00],
  [1.063496E-05, 1.093554E-03, 6.118667E-03, 8.289943E-03, -6.351375E-03, -2.727317E-02, -1.884975E-02, 1.505827E-02, 2.254939E-02, -3.687261E-03, -1.406190E-02, -6.588451E-04, 3.357969E-03, 1.777882E-04, 1.929358E-03, -7.261983E-04, -2.375471E-03, 1.444298E-03, 1.113071E-03, -1.365734E-03, -7.340458E-05, 8.565896E-04, -3.439276E-04, -4.396812E-04, 4.906486E-04, 1.093986E-04, -5.292424E-04, 2.728790E-04, 2.921394E-04, -4.863850E-04, 0.000000E+00],
  [-2.593340E-04, -9.602057E-04, -9.109083E-04, 5.371661E-03, 1.485885E-02, 1.042338E-02, -9.884106E-03, -1.633193E-02, 3.010635E-03, 1.430745E-02, 9.669893E-04, -7.810854E-03, -9.429856E-04, 1.929358E-03, 7.850042E-05, 9.516287E-04, -5.184735E-04, -1.079705E-03, 8.897749E-04, 2.456940E-04, -5.624100E-04, 2.454544E-04, -1.621209E-05, -1.195861E-04, 2.753016E-04, -2.314099E-04, -9.245082E-05, 3.495642E-04, -2.216696E-04, -1.311494E-04, 0.000000E+00],
  [-3.657483E-07, -1.244913E-04, -1.824158E-03, -4.817812E-03, -2.668344E-03, 7.352374E-03, 1.132832E-02, -9.607745E-04, -1.090726E-02, -1.684734E-03, 8.125905E-03, 1.999825E-03, -4.145361E-03, -7.261983E-04, 9.516287E-04, 1.693382E-06, 7.175502E-04, -4.237610E-04, -7.698142E-04, 7.871703E-04, 2.044857E-04, -6.817522E-04, 2.226540E-04, 3.632747E-04, -3.680629E-04, -5.798017E-05, 3.166739E-04, -1.538150E-04, -1.375885E-04, 1.930789E-04, 0.000000E+00],
  [1.900178E-04, 4.834517E-04, 1.046996E-03, -2.487504E-04, -4.955793E-03, -7.432978E-03, -6.387923E-04, 7.297771E-03, 2.748141E-03, -6.124321E-03, -2.951004E-03, 4.382223E-03, 1.922330E-03, -2.375471E-03, -5.184735E-04, 7.175502E-04, -1.047332E-04, 2.451309E-04, -1.080346E-04, -2.799043E-04, 2.373919E-04, 2.616614E-05, -8.480751E-05, 3.463467E-05, -5.708371E-05, 5.902407E-05, 3.992608E-05, -1.053845E-04, 2.608732E-05, 8.531367E-05, 0.000000E+00],
  [-1.100130E-04, -1.648366E-04, 2.813314E-04, 2.024079E-03, 3.242012E-03, 2.714010E-04, -4.446356E-03, -2.849161E-03, 3.389136E-03, 3.081725E-03, -2.743246E-03, -2.540461E-03, 1.956651E-03, 1.444298E-03, -1.079705E-03, -4.237610E-04, 2.451309E-04, 6.606204E-05, 2.755291E-04, -2.873922E-04, -1.961240E-04, 4.037343E-04, -8.526289E-05, -2.580929E-04, 2.178714E-04, 5.196884E-05, -1.746664E-04, 5.467379E-05, 8.739532E-05, -6.514780E-05, 0.000000E+00],
  [-8.682313E-05, -2.124712E-04, -6.399663E-04, -8.586806E-04, 6.380136E-04, 3.265644E-03, 2.612683E-03, -1.849639E-03, -2.906345E-03, 1.383279E-03, 2.537563E-03, -1.292045E-03, -1.836324E-03, 1.113071E-03, 8.897749E-04, -7.698142E-04, -1.080346E-04, 2.755291E-04, -1.726507E-04, 1.202596E-04, 2.493173E-05, -1.446993E-04, 8.209206E-05, 3.225940E-05, -5.074904E-05, 2.091590E-05, -1.531014E-05, 8.464022E-07, 4.968635E-05, -6.994344E-05, 0.000000E+00],
  [1.903229E-04, 2.850522E-04, 2.527319E-04, -4.277813E-04, -1.759948E-03, -2.009882E-03, 3.315273E-04, 2.274052E-03, 2.907843E-04, -2.024906E-03, -1.841720E-04, 1.789808E-03, -5.324327E-05, -1.365734E-03, 2.456940E-04, 7.871703E-04, -2.799043E-04, -2.873922E-04, 1.202596E-04, 8.182645E-05, 4.732571E-05, -1.390547E-04, -8.159349E-06, 1.498398E-04, -7.938927E-05, -7.950528E-05, 1.046642E-04, 1.509733E-05, -1.029364E-04, 4.587295E-05, 0.000000E+00],
  [-1.282157E-04, -8.013916E-05, 2.501507E-04, 7.068743E-04, 5.751134E-04, -5.008979E-04, -1.291973E-03, -2.844974E-04, 1.073688E-03, 3.241511E-04, -9.373855E-04, -1.269645E-04, 8.108002E-04, -7.340458E-05, -5.624100E-04, 2.044857E-04, 2.373919E-04, -1.961240E-04, 2.493173E-05, 4.732571E-05, -8.886450E-05, 8.910528E-05, -1.485105E-05, -5.410659E-05, 5.167348E-05, -1.727523E-05, 6.322609E-07, 1.040777E-05, -3.439005E-05, 4.459555E-05, 0.000000E+00],
  [-1.878290E-05, -1.627457E-04, -4.793952E-04, -4.097837E-04, 5.788429E-04, 1.619476E-03, 8.660441E-04, -1.082167E-03, -1.045656E-03, 8.700480E-04, 8.464497E-04, -8.891813E-04, -5.645165E-04, 8.565896E-04, 2.454544E-04, -6.817522E-04, 2.616614E-05, 4.037343E-04, -1.446993E-04, -1.390547E-04, 8.910528E-05, 2.343669E-05, 1.079056E-05, -6.535186E-05, 4.297247E-06, 9.087105E-05, -7.565812E-05, -3.998380E-05, 1.142406E-04, -5.969974E-05, 0.000000E+00],
  [1.224313E-04, 2.286995E-04, 3.166164E-04, 7.293555E-05, -5.587091E-04, -9.614572E-04, -2.962912E-04, 7.429103E-04, 4.838988E-04, -5.542773E-04, -3.915775E-04, 4.399109E-04, 1.978087E-04, -3.439276E-04, -1.621209E-05, 2.226540E-04, -8.480751E-05, -8.526289E-05, 8.209206E-05, -8.159349E-06, -1.485105E-05, 1.079056E-05, -2.389054E-05, 2.954495E-05, -3.414393E-06, -2.469813E-05, 1.884914E-05, 9.954243E-06, -2.305322E-05, 5.045898E-06, 0.000000E+00],
  [-1.200304E-04, -8.783368E-05, 1.214624E-04, 2.219886E-04, -1.246306E-04, -4.677897E-04, -1.587699E-04, 3.982841E-04, 2.115337E-04, -4.065071E-04, -2.021912E-04, 4.547713E-04, 1.828321E-04, -4.396812E-04, -1.195861E-04, 3.632747E-04, 3.463467E-05, -2.580929E-04, 3.225940E-05, 1.498398E-04, -5.410659E-05, -6.535186E-05, 2.954495E-05, 4.096216E-05, -1.199612E-05, -6.012571E-05, 5.530824E-05, 2.707201E-05, -8.300045E-05, 4.748489E-05, 0.000000E+00],
  [4.662728E-05, -1.087191E-04, -5.198834E-04, -5.134474E-04, 4.472803E-04, 1.358672E-03, 6.589228E-04, -9.148180E-04, -8.375954E-04, 6.952691E-04, 7.594307E-04, -5.868317E-04, -5.445842E-04, 4.906486E-04, 2.753016E-04, -3.680629E-04, -5.708371E-05, 2.178714E-04, -5.074904E-05, -7.938927E-05, 5.167348E-05, 4.297247E-06, -3.414393E-06, -1.199612E-05, -1.004385E-05, 4.561887E-05, -3.771059E-05, -1.851617E-05, 6.408366E-05, -4.610528E-05, 0.000000E+00],
  [1.959451E-05, 1.791519E-04, 5.497541E-04, 6.223153E-04, -3.861147E-05, -9.594801E-04, -9.300167E-04, 2.573881E-04, 9.244244E-04, 4.485394E-05, -7.441198E-04, -1.420785E-04, 4.785620E-04, 1.093986E-04, -2.314099E-04, -5.798017E-05, 5.902407E-05, 5.196884E-05, 2.091590E-05, -7.950528E-05, -1.727523E-05, 9.087105E-05, -2.469813E-05, -6.012571E-05, 4.561887E-05, 1.852657E-05, -3.349107E-05, -3.140227E-06, 2.514539E-05, -4.930213E-06, 0.000000E+00],
  [-3.349762E-05, -7.286298E-05, -1.386562E-04, -2.938039E-04, -5.586900E-04, -4.016543E-04, 4.548243E-04, 8.399494E-04, -1.321480E-04, -9.049795E-04, -7.509979E-05, 7.638720E-04, 1.362120E-04, -5.292424E-04, -9.245082E-05, 3.166739E-04, 3.992608E-05, -1.746664E-04, -1.531014E-05, 1.046642E-04, 6.322609E-07, -7.565812E-05, 1.884914E-05, 5.530824E-05, -3.771059E-05, -3.349107E-05, 5.424333E-05, 1.051259E-06, -5.868838E-05, 4.755092E-05, 0.000000E+00],
  [1.203713E-05, -9.546721E-05, -4.231396E-04, -4.147113E-04, 5.508544E-04, 1.521498E-03, 6.981776E-04, -1.135728E-03, -1.051591E-03, 7.665513E-04, 1.012745E-03, -4.591641E-04, -7.037818E-04, 2.728790E-04, 3.495642E-04, -1.538150E-04, -1.053845E-04, 5.467379E-05, 8.464022E-07, 1.509733E-05, 1.040777E-05, -3.998380E-05, 9.954243E-06, 2.707201E-05, -1.851617E-05, -3.140227E-06, 1.051259E-06, 3.998097E-06, 1.379980E-05, -3.209865E-05, 0.000000E+00],
  [-1.901393E-06, 1.598325E-04, 6.850113E-04, 1.010746E-03, 2.336895E-04, -1.300495E-03, -1.595624E-03, 1.484595E-04, 1.479925E-03, 3.831334E-04, -1.035726E-03, -4.597895E-04, 5.604441E-04, 2.921394E-04, -2.216696E-04, -1.375885E-04, 2.608732E-05, 8.739532E-05, 4.968635E-05, -1.029364E-04, -3.439005E-05, 1.142406E-04, -2.305322E-05, -8.300045E-05, 6.408366E-05, 2.514539E-05, -5.868838E-05, 1.379980E-05, 3.130027E-05, -2.046989E-05, 0.000000E+00],
  [2.674750E-05, -5.549263E-05, -4.054444E-04, -9.224351E-04, -1.093670E-03, -2.323972E-04, 1.212044E-03, 1.265603E-03, -4.871981E-04, -1.349175E-03, -3.607486E-05, 9.396287E-04, 1.778235E-04, -4.863850E-04, -1.311494E-04, 1.930789E-04, 8.531367E-05, -6.514780E-05, -6.994344E-05, 4.587295E-05, 4.459555E-05, -5.969974E-05, 5.045898E-06, 4.748489E-05, -4.610528E-05, -4.930213E-06, 4.755092E-05, -3.209865E-05, -2.046989E-05, 4.424511E-05, 0.000000E+00],
  [0.000000E+00, 0.000000E+00, 0.000000E+00, 0.000000E+00, 0.000000E+00, 0.000000E+00, 0.000000E+00, 0.000000E+00, 0.000000E+00, 0.000000E+00, 0.000000E+00, 0.000000E+00, 0.000000E+00, 0.000000E+00, 0.000000E+00, 0.000000E+00, 0.000000E+00, 0.000000E+00, 0.000000E+00, 0.000000E+00, 0.000000E+00, 0.000000E+00, 0.000000E+00, 0.000000E+00, 0.000000E+00, 0.000000E+00, 0.000000E+00, 0.000000E+00, 0.000000E+00, 0.000000E+00, 0.000000E+00]]

/-- `Daejeon16_public_v2.f90` 235-267. -/
def unc1f3 : List (List Num) := [
  [1.090741E+00, 6.885832E-01, 2.392363E-01, 1.316551E-02, -2.761336E-02, -6.443862E-03, 4.414709E-03, 1.287820E-03, -1.058263E-03, -1.771672E-04, 2.977204E-04, -1.101167E-05, -8.106633E-05, 1.568915E-05, 3.271572E-05, -1.741209E-05, -1.818821E-05, 3.075073E-05, -1.333433E-05, -1.351917E-05, 2.640815E-05, -1.803784E-05, -6.443194E-07, 1.314852E-05, -1.206914E-05, 3.188741E-06, 2.478294E-06, 3.076384E-07, -7.028760E-06, 0.000000E+00, 0.000000E+00],
  [6.885832E-01, 1.183254E+00, 7.767888E-01, 2.213935E-01, -4.088806E-02, -4.560602E-02, 2.992774E-03, 9.810141E-03, -1.277169E-03, -2.391499E-03, 7.657412E-04, 5.497474E-04, -3.840324E-04, -7.518892E-05, 1.684103E-04, -3.464257E-05, -6.407803E-05, 5.568366E-05, 3.574051E-06, -4.542182E-05, 3.949119E-05, 2.009901E-06, -4.078572E-05, 4.304317E-05, -7.082628E-06, -3.529686E-05, 4.665936E-05, -1.680465E-05, -2.852775E-05, 0.000000E+00, 0.000000E+00],
  [2.392363E-01, 7.767888E-01, 1.060734E+00, 6.249602E-01, 9.690662E-02, -8.728886E-02, -3.153094E-02, 1.867420E-02, 6.721201E-03, -6.137739E-03, -8.447179E-04, 2.191470E-03, -3.369130E-04, -6.537292E-04, 3.435706E-04, 1.140709E-04, -1.729692E-04, 1.663632E-05, 8.560695E-05, -7.012334E-05, -2.202442E-06, 6.756648E-05, -8.973763E-05, 5.370234E-05, 2.598137E-05, -9.971331E-05, 1.106881E-04, -4.247454E-05, -5.961621E-05, 0.000000E+00, 0.000000E+00],
  [1.316551E-02, 2.213935E-01, 6.249602E-01, 7.632803E-01, 3.772232E-01, -9.685523E-03, -7.973514E-02, -1.508766E-03, 1.994385E-02, -3.158241E-03, -5.696316E-03, 2.742213E-03, 1.264334E-03, -1.474997E-03, 2.334937E-05, 5.877594E-04, -2.393714E-04, -1.619326E-04, 1.909589E-04, -2.247035E-05, -8.473073E-05, 7.562541E-05, -2.895588E-05, -1.143268E-07, 2.256825E-05, -5.597965E-05, 7.688395E-05, -4.542689E-05, -3.770189E-05, 0.000000E+00, 0.000000E+00],
  [-2.761336E-02, -4.088806E-02, 9.690662E-02, 3.772232E-01, 4.576081E-01, 1.898281E-01, -4.082124E-02, -4.567108E-02, 1.109122E-02, 8.876442E-03, -6.589595E-03, -6.874247E-04, 3.118845E-03, -9.745088E-04, -9.967454E-04, 8.625656E-04, 7.161578E-05, -4.295618E-04, 1.607757E-04, 1.478126E-04, -1.612615E-04, -1.675220E-05, 1.334939E-04, -8.017784E-05, -5.155563E-05, 1.119210E-04, -5.147237E-05, -5.101320E-05, 8.767705E-05, 0.000000E+00, 0.000000E+00],
  [-6.443862E-03, -4.560602E-02, -8.728886E-02, -9.685523E-03, 1.898281E-01, 2.596787E-01, 9.649522E-02, -3.608771E-02, -2.483822E-02, 8.684273E-03, 2.372089E-03, -3.573442E-03, 1.576465E-03, 9.320304E-04, -1.368789E-03, 1.994621E-04, 5.915955E-04, -4.036668E-04, -9.008047E-05, 2.834664E-04, -1.329957E-04, -1.043706E-04, 1.981500E-04, -9.219383E-05, -9.639653E-05, 1.913136E-04, -1.119064E-04, -6.156837E-05, 1.740599E-04, 0.000000E+00, 0.000000E+00],
  [4.414709E-03, 2.992774E-03, -3.153094E-02, -7.973514E-02, -4.082124E-02, 9.649522E-02, 1.504935E-01, 4.780013E-02, -3.030380E-02, -1.483779E-02, 6.611763E-03, 1.179787E-03, -1.532108E-03, 1.101005E-03, -1.423620E-04, -6.621432E-04, 4.750893E-04, 9.054656E-05, -2.768690E-04, 1.156731E-04, 4.306010E-05, -7.530789E-05, 5.121117E-05, -1.758098E-05, -3.067461E-05, 6.783859E-05, -4.376116E-05, -3.242828E-05, 8.132355E-05, 0.000000E+00, 0.000000E+00],
  [1.287820E-03, 9.810141E-03, 1.867420E-02, -1.508766E-03, -4.567108E-02, -3.608771E-02, 4.780013E-02, 8.343392E-02, 1.975526E-02, -2.312031E-02, -7.299236E-03, 5.436648E-03, 4.368926E-04, -8.205657E-04, 5.871543E-04, -3.566474E-04, -2.040934E-04, 3.997147E-04, -8.849459E-05, -1.973844E-04, 1.513750E-04, 4.868898E-05, -1.259499E-04, 3.784455E-05, 6.412853E-05, -6.866652E-05, 1.442393E-05, 1.346583E-05, -1.376109E-05, 0.000000E+00, 0.000000E+00],
  [-1.058263E-03, -1.277169E-03, 6.721201E-03, 1.994385E-02, 1.109122E-02, -2.483822E-02, -3.030380E-02, 1.975526E-02, 4.471539E-02, 7.224841E-03, -1.546789E-02, -2.841507E-03, 3.980013E-03, -1.247457E-05, -5.008494E-04, 2.259385E-04, -2.598132E-04, 8.297952E-05, 1.668304E-04, -1.820925E-04, 2.439560E-05, 1.027549E-04, -9.887930E-05, -3.292917E-07, 7.895546E-05, -5.211959E-05, -3.571944E-05, 5.922462E-05, 2.043966E-05, 0.000000E+00, 0.000000E+00],
  [-1.771672E-04, -2.391499E-03, -6.137739E-03, -3.158241E-03, 8.876442E-03, 8.684273E-03, -1.483779E-02, -2.312031E-02, 7.224841E-03, 2.440134E-02, 2.152438E-03, -9.734278E-03, -5.747430E-04, 2.686515E-03, -3.101938E-04, -3.288528E-04, 1.428470E-04, -1.465492E-04, 7.145944E-05, 8.355209E-05, -9.535921E-05, 2.881375E-06, 4.001963E-05, -2.470662E-05, 1.873925E-05, -9.451362E-06, -4.839845E-05, 9.936648E-05, -3.052779E-05, 0.000000E+00, 0.000000E+00],
  [2.977204E-04, 7.657412E-04, -8.447179E-04, -5.696316E-03, -6.589595E-03, 2.372089E-03, 6.611763E-03, -7.299236E-03, -1.546789E-02, 2.152438E-03, 1.351443E-02, 3.287579E-04, -5.827941E-03, 3.225610E-04, 1.637924E-03, -3.605638E-04, -1.799784E-04, 4.218498E-05, -5.453277E-05, 1.094709E-04, -1.810857E-05, -8.627367E-05, 5.802212E-05, 4.035158E-05, -5.478915E-05, -3.471362E-05, 8.263546E-05, 1.438083E-05, -1.483681E-04, 0.000000E+00, 0.000000E+00],
  [-1.101167E-05, 5.497474E-04, 2.191470E-03, 2.742213E-03, -6.874247E-04, -3.573442E-03, 1.179787E-03, 5.436648E-03, -2.841507E-03, -9.734278E-03, 3.287579E-04, 7.682296E-03, -2.505502E-04, -3.424583E-03, 5.907376E-04, 9.416859E-04, -3.661383E-04, -8.242108E-05, 6.397082E-05, -2.524831E-05, 3.502367E-05, -2.803181E-05, 1.373677E-06, 4.309404E-05, -7.115031E-05, 1.342494E-05, 1.077371E-04, -1.409505E-04, -9.673487E-06, 0.000000E+00, 0.000000E+00],
  [-8.106633E-05, -3.840324E-04, -3.369130E-04, 1.264334E-03, 3.118845E-03, 1.576465E-03, -1.532108E-03, 4.368926E-04, 3.980013E-03, -5.747430E-04, -5.827941E-03, -2.505502E-04, 4.422082E-03, -3.462024E-04, -1.968226E-03, 5.317341E-04, 4.935109E-04, -2.534808E-04, -1.831995E-05, 1.245674E-05, -1.652774E-05, 5.115602E-05, -4.615791E-06, -5.984032E-05, 1.661183E-05, 8.798078E-05, -8.424259E-05, -6.582661E-05, 1.838986E-04, 0.000000E+00, 0.000000E+00],
  [1.568915E-05, -7.518892E-05, -6.537292E-04, -1.474997E-03, -9.745088E-04, 9.320304E-04, 1.101005E-03, -8.205657E-04, -1.247457E-05, 2.686515E-03, 3.225610E-04, -3.424583E-03, -3.462024E-04, 2.591775E-03, -3.368715E-04, -1.133049E-03, 4.441531E-04, 2.479661E-04, -1.974805E-04, -3.023501E-06, 2.658338E-05, 2.590654E-05, -2.137446E-05, -4.909661E-05, 8.779968E-05, -1.030348E-05, -1.195756E-04, 1.351845E-04, 2.038687E-05, 0.000000E+00, 0.000000E+00],
  [3.271572E-05, 1.684103E-04, 3.435706E-04, 2.334937E-05, -9.967454E-04, -1.368789E-03, -1.423620E-04, 5.871543E-04, -5.008494E-04, -3.101938E-04, 1.637924E-03, 5.907376E-04, -1.968226E-03, -3.368715E-04, 1.521726E-03, -2.434464E-04, -6.381867E-04, 3.054949E-04, 9.785096E-05, -1.143873E-04, 4.201745E-05, -1.548496E-05, -3.301617E-05, 6.654880E-05, -1.805125E-06, -9.634113E-05, 8.030840E-05, 5.902507E-05, -1.579570E-04, 0.000000E+00, 0.000000E+00],
  [-1.741209E-05, -3.464257E-05, 1.140709E-04, 5.877594E-04, 8.625656E-04, 1.994621E-04, -6.621432E-04, -3.566474E-04, 2.259385E-04, -3.288528E-04, -3.605638E-04, 9.416859E-04, 5.317341E-04, -1.133049E-03, -2.434464E-04, 9.114937E-04, -1.929792E-04, -3.723639E-04, 2.203644E-04, 6.021802E-05, -8.704965E-05, -1.595210E-05, 4.337071E-05, 2.979864E-05, -8.315353E-05, 2.399690E-05, 8.938843E-05, -1.148855E-04, 6.112952E-06, 0.000000E+00, 0.000000E+00],
  [-1.818821E-05, -6.407803E-05, -1.729692E-04, -2.393714E-04, 7.161578E-05, 5.915955E-04, 4.750893E-04, -2.040934E-04, -2.598132E-04, 1.428470E-04, -1.799784E-04, -3.661383E-04, 4.935109E-04, 4.441531E-04, -6.381867E-04, -1.929792E-04, 5.371901E-04, -1.283845E-04, -1.882496E-04, 1.367586E-04, -2.077286E-05, -1.653575E-05, 4.439044E-05, -6.129019E-05, 7.628204E-06, 7.465168E-05, -7.550410E-05, -2.081200E-05, 1.044950E-04, 0.000000E+00, 0.000000E+00],
  [3.075073E-05, 5.568366E-05, 1.663632E-05, -1.619326E-04, -4.295618E-04, -4.036668E-04, 9.054656E-05, 3.997147E-04, 8.297952E-05, -1.465492E-04, 4.218498E-05, -8.242108E-05, -2.534808E-04, 2.479661E-04, 3.054949E-04, -3.723639E-04, -1.283845E-04, 3.482770E-04, -9.800383E-05, -1.433786E-04, 1.162621E-04, 2.547843E-05, -7.334904E-05, 3.305446E-06, 6.669143E-05, -4.276849E-05, -4.261692E-05, 8.393038E-05, -3.259044E-05, 0.000000E+00, 0.000000E+00],
  [-1.333433E-05, 3.574051E-06, 8.560695E-05, 1.909589E-04, 1.607757E-04, -9.008047E-05, -2.768690E-04, -8.849459E-05, 1.668304E-04, 7.145944E-05, -5.453277E-05, 6.397082E-05, -1.831995E-05, -1.974805E-04, 9.785096E-05, 2.203644E-04, -1.882496E-04, -9.800383E-05, 1.804575E-04, -4.637789E-05, -4.189512E-05, 2.738366E-05, -1.772182E-05, 3.487704E-05, -1.740628E-05, -3.643809E-05, 5.778351E-05, -1.397746E-05, -4.574197E-05, 0.000000E+00, 0.000000E+00],
  [-1.351917E-05, -4.542182E-05, -7.012334E-05, -2.247035E-05, 1.478126E-04, 2.834664E-04, 1.156731E-04, -1.973844E-04, -1.820925E-04, 8.355209E-05, 1.094709E-04, -2.524831E-05, 1.245674E-05, -3.023501E-06, -1.143873E-04, 6.021802E-05, 1.367586E-04, -1.433786E-04, -4.637789E-05, 1.557243E-04, -7.632803E-05, -5.410814E-05, 8.793140E-05, -2.105702E-05, -4.965694E-05, 4.962255E-05, 5.691743E-06, -4.752028E-05, 3.536944E-05, 0.000000E+00, 0.000000E+00],
  [2.640815E-05, 3.949119E-05, -2.202442E-06, -8.473073E-05, -1.612615E-04, -1.329957E-04, 4.306010E-05, 1.513750E-04, 2.439560E-05, -9.535921E-05, -1.810857E-05, 3.502367E-05, -1.652774E-05, 2.658338E-05, 4.201745E-05, -8.704965E-05, -2.077286E-05, 1.162621E-04, -4.189512E-05, -7.632803E-05, 7.346462E-05, 7.733624E-06, -3.821189E-05, 6.841234E-07, 2.759216E-05, -6.568079E-06, -2.722968E-05, 2.827841E-05, 1.192653E-06, 0.000000E+00, 0.000000E+00],
  [-1.803784E-05, 2.009901E-06, 6.756648E-05, 7.562541E-05, -1.675220E-05, -1.043706E-04, -7.530789E-05, 4.868898E-05, 1.027549E-04, 2.881375E-06, -8.627367E-05, -2.803181E-05, 5.115602E-05, 2.590654E-05, -1.548496E-05, -1.595210E-05, -1.653575E-05, 2.547843E-05, 2.738366E-05, -5.410814E-05, 7.733624E-06, 5.075439E-05, -5.293829E-05, 5.874359E-06, 3.401231E-05, -3.174628E-05, 2.233509E-06, 1.904976E-05, -1.620444E-05, 0.000000E+00, 0.000000E+00],
  [-6.443194E-07, -4.078572E-05, -8.973763E-05, -2.895588E-05, 1.334939E-04, 1.981500E-04, 5.121117E-05, -1.259499E-04, -9.887930E-05, 4.001963E-05, 5.802212E-05, 1.373677E-06, -4.615791E-06, -2.137446E-05, -3.301617E-05, 4.337071E-05, 4.439044E-05, -7.334904E-05, -1.772182E-05, 8.793140E-05, -3.821189E-05, -5.293829E-05, 6.975482E-05, -1.054807E-05, -4.142077E-05, 3.471271E-05, 5.863304E-06, -2.944402E-05, 1.815656E-05, 0.000000E+00, 0.000000E+00],
  [1.314852E-05, 4.304317E-05, 5.370234E-05, -1.143268E-07, -8.017784E-05, -9.219383E-05, -1.758098E-05, 3.784455E-05, -3.292917E-07, -2.470662E-05, 4.035158E-05, 4.309404E-05, -5.984032E-05, -4.909661E-05, 6.654880E-05, 2.979864E-05, -6.129019E-05, 3.305446E-06, 3.487704E-05, -2.105702E-05, 6.841234E-07, 5.874359E-06, -1.054807E-05, 1.399285E-05, -6.394821E-06, -7.314190E-06, 1.079862E-05, -6.943714E-08, -1.094044E-05, 0.000000E+00, 0.000000E+00],
  [-1.206914E-05, -7.082628E-06, 2.598137E-05, 2.256825E-05, -5.155563E-05, -9.639653E-05, -3.067461E-05, 6.412853E-05, 7.895546E-05, 1.873925E-05, -5.478915E-05, -7.115031E-05, 1.661183E-05, 8.779968E-05, -1.805125E-06, -8.315353E-05, 7.628204E-06, 6.669143E-05, -1.740628E-05, -4.965694E-05, 2.759216E-05, 3.401231E-05, -4.142077E-05, -6.394821E-06, 4.087483E-05, -2.501840E-05, -1.239512E-05, 2.679148E-05, -9.898590E-06, 0.000000E+00, 0.000000E+00],
  [3.188741E-06, -3.529686E-05, -9.971331E-05, -5.597965E-05, 1.119210E-04, 1.913136E-04, 6.783859E-05, -6.866652E-05, -5.211959E-05, -9.451362E-06, -3.471362E-05, 1.342494E-05, 8.798078E-05, -1.030348E-05, -9.634113E-05, 2.399690E-05, 7.465168E-05, -4.276849E-05, -3.643809E-05, 4.962255E-05, -6.568079E-06, -3.174628E-05, 3.471271E-05, -7.314190E-06, -2.501840E-05, 3.351885E-05, -1.118329E-05, -1.871070E-05, 2.707103E-05, 0.000000E+00, 0.000000E+00],
  [2.478294E-06, 4.665936E-05, 1.106881E-04, 7.688395E-05, -5.147237E-05, -1.119064E-04, -4.376116E-05, 1.442393E-05, -3.571944E-05, -4.839845E-05, 8.263546E-05, 1.077371E-04, -8.424259E-05, -1.195756E-04, 8.030840E-05, 8.938843E-05, -7.550410E-05, -4.261692E-05, 5.778351E-05, 5.691743E-06, -2.722968E-05, 2.233509E-06, 5.863304E-06, 1.079862E-05, -1.239512E-05, -1.118329E-05, 2.722990E-05, -1.221042E-05, -1.677612E-05, 0.000000E+00, 0.000000E+00],
  [3.076384E-07, -1.680465E-05, -4.247454E-05, -4.542689E-05, -5.101320E-05, -6.156837E-05, -3.242828E-05, 1.346583E-05, 5.922462E-05, 9.936648E-05, 1.438083E-05, -1.409505E-04, -6.582661E-05, 1.351845E-04, 5.902507E-05, -1.148855E-04, -2.081200E-05, 8.393038E-05, -1.397746E-05, -4.752028E-05, 2.827841E-05, 1.904976E-05, -2.944402E-05, -6.943714E-08, 2.679148E-05, -1.871070E-05, -1.221042E-05, 2.909378E-05, -1.415358E-05, 0.000000E+00, 0.000000E+00],
  [-7.028760E-06, -2.852775E-05, -5.961621E-05, -3.770189E-05, 8.767705E-05, 1.740599E-04, 8.132355E-05, -1.376109E-05, 2.043966E-05, -3.052779E-05, -1.483681E-04, -9.673487E-06, 1.838986E-04, 2.038687E-05, -1.579570E-04, 6.112952E-06, 1.044950E-04, -3.259044E-05, -4.574197E-05, 3.536944E-05, 1.192653E-06, -1.620444E-05, 1.815656E-05, -1.094044E-05, -9.898590E-06, 2.707103E-05, -1.677612E-05, -1.415358E-05, 3.225814E-05, 0.000000E+00, 0.000000E+00],
  [0.000000E+00, 0.000000E+00, 0.000000E+00, 0.000000E+00, 0.000000E+00, 0.000000E+00, 0.000000E+00, 0.000000E+00, 0.000000E+00, 0.000000E+00, 0.000000E+00, 0.000000E+00, 0.000000E+00, 0.000000E+00, 0.000000E+00, 0.000000E+00, 0.000000E+00, 0.000000E+00, 0.000000E+00, 0.000000E+00, 0.000000E+00, 0.000000E+00, 0.000000E+00, 0.000000E+00, 0.000000E+00, 0.000000E+00, 0.000000E+00, 0.000000E+00, 0.000000E+00, 0.000000E+00, 0.000000E+00],
  [0.000000E+00, 0.000000E+00, 0.000000E+00, 0.000000E+00, 0.000000E+00, 0.000000E+00, 0.000000E+00, 0.000000E+00, 0.000000E+00, 0.000000E+00, 0.000000E+00, 0.000000E+00, 0.000000E+00, 0.000000E+00, 0.000000E+00, 0.000000E+00, 0.000000E+00, 0.000000E+00, 0.000000E+00, 0.000000E+00, 0.000000E+00, 0.000000E+00, 0.000000E+00, 0.000000E+00, 0.000000E+00, 0.000000E+00, 0.000000E+00, 0.000000E+00, 0.000000E+00, 0.000000E+00, 0.000000E+00]]

end Verif.Daejeon
