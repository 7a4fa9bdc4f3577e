import Verif.Daejeon.Number

/-!
# Tables of Daejeon16: coup3pf

The `data` statements of `contrib/Daejeon16/Daejeon16_public_v2.f90`, line by line; a line of the source is a row here.
-/

namespace Verif.Daejeon

/-- `Daejeon16_public_v2.f90` 564-579. -/
def coup3pf_1 : List (List Num) := [
  [-3.929755E+00, -3.482783E+00, -2.400558E+00, -2.603333E-01, 5.175311E-02, 3.374377E-02, -3.191397E-03, -3.746250E-03, 3.862720E-04, 4.559853E-04, -3.213703E-05, -1.034735E-04, 5.654735E-06, 4.146814E-05, 1.136523E-06, -4.353635E-05, 2.641142E-05, 2.885968E-05, -6.279732E-05, 4.286374E-05, 1.112007E-05, -5.316561E-05, 5.434166E-05, -2.242632E-05, -1.286695E-05, 2.848043E-05, -2.357370E-05, 1.284262E-05, -9.012671E-06, 1.187782E-05, 0.000000E+00, 1.283915E+00, 8.166585E-01, 1.744714E-01, -6.828868E-02, -2.758006E-02, 1.750062E-02, 4.299249E-03, -5.988488E-03, 9.692234E-05, 1.875060E-03, -6.205193E-04, -3.868984E-04, 3.533020E-04, -3.430337E-05, -8.558081E-05, 5.113023E-05, -1.481970E-05, 1.401175E-05, -1.409342E-05, -4.844841E-06, 2.870166E-05, -3.592047E-05, 2.087228E-05, 4.833715E-06, -2.468790E-05, 2.904353E-05, -1.908107E-05, 3.485918E-06, 8.123578E-06, 0.000000E+00, 0.000000E+00],
  [-3.482783E+00, -2.603866E+00, -3.292684E+00, -1.660401E+00, -3.752407E-01, 8.688152E-02, 7.016820E-02, -3.235611E-03, -1.138545E-02, 7.569301E-04, 2.157596E-03, -5.133124E-04, -4.381047E-04, 2.840256E-04, 6.833387E-05, -1.693266E-04, 5.360033E-05, 8.736767E-05, -1.196071E-04, 3.640761E-05, 7.272126E-05, -1.095594E-04, 4.923532E-05, 4.583927E-05, -8.877316E-05, 4.754246E-05, 3.149042E-05, -7.186957E-05, 3.732909E-05, 3.922025E-05, 0.000000E+00, 6.612567E-01, 1.121933E+00, 6.784605E-01, 1.004077E-01, -5.857962E-02, 1.361628E-02, 2.350437E-02, -1.275879E-02, -8.439968E-03, 6.910338E-03, 1.663703E-03, -3.079098E-03, 3.758823E-04, 9.855590E-04, -5.158930E-04, -1.395453E-04, 2.400382E-04, -5.148180E-05, -6.566919E-05, 4.677935E-05, 9.812331E-06, -3.287440E-05, 2.101662E-05, 2.678450E-06, -2.436532E-05, 3.655554E-05, -2.879115E-05, -4.250832E-06, 4.737525E-05, 0.000000E+00, 0.000000E+00],
  [-2.400558E+00, -3.292684E+00, -4.262365E+00, -3.520203E+00, -1.711976E+00, -2.753557E-01, 1.836100E-01, 8.563154E-02, -2.267491E-02, -1.599652E-02, 5.635746E-03, 2.376053E-03, -1.895030E-03, 3.004194E-05, 5.407379E-04, -2.436927E-04, -9.841260E-05, 1.556532E-04, -2.372295E-05, -1.027913E-04, 1.229685E-04, -3.770052E-05, -9.152143E-05, 1.726350E-04, -1.332106E-04, -1.562790E-05, 1.697501E-04, -2.090242E-04, 9.852468E-05, 8.048264E-05, 0.000000E+00, 1.478357E-01, 5.269753E-01, 7.602684E-01, 4.675388E-01, 1.317166E-01, 4.627615E-02, 2.970410E-02, -2.282618E-02, -2.566110E-02, 1.081034E-02, 1.072547E-02, -6.642405E-03, -2.758675E-03, 3.580081E-03, -2.072639E-04, -1.339124E-03, 6.899610E-04, 1.734030E-04, -3.376553E-04, 1.194309E-04, 2.532237E-05, -2.385462E-05, 1.346722E-05, -5.128193E-05, 6.400527E-05, 1.091634E-05, -1.150195E-04, 1.197190E-04, 2.503849E-05, 0.000000E+00, 0.000000E+00],
  [-2.603333E-01, -1.660401E+00, -3.520203E+00, -4.408471E+00, -3.422208E+00, -1.440898E+00, -3.921445E-02, 2.570247E-01, 5.761683E-02, -4.365152E-02, -1.043358E-02, 9.577250E-03, 1.466095E-04, -2.151941E-03, 8.235676E-04, 3.388961E-04, -5.310192E-04, 8.420577E-05, 3.092930E-04, -2.833211E-04, 1.347686E-06, 2.102898E-04, -2.208404E-04, 1.037756E-04, 3.204939E-05, -1.287058E-04, 1.582684E-04, -1.084523E-04, 8.448154E-06, 7.293504E-05, 0.000000E+00, -2.054569E-02, 8.050228E-02, 3.805214E-01, 6.347841E-01, 5.470553E-01, 2.938572E-01, 7.144603E-02, -6.135080E-02, -6.215393E-02, 1.115949E-02, 2.871820E-02, -6.559077E-03, -1.131561E-02, 5.607673E-03, 3.006710E-03, -3.474489E-03, 1.981604E-04, 1.343750E-03, -7.092073E-04, -1.987859E-04, 3.388709E-04, -1.396631E-05, -1.378632E-04, -5.275827E-05, 2.625811E-04, -1.474954E-04, -2.451748E-04, 5.054223E-04, -2.816229E-04, 0.000000E+00, 0.000000E+00],
  [5.175311E-02, -3.752407E-01, -1.711976E+00, -3.422208E+00, -4.035870E+00, -2.858579E+00, -9.492365E-01, 1.812862E-01, 2.544136E-01, 9.762628E-03, -5.037686E-02, -1.227275E-03, 9.746300E-03, -1.785461E-03, -1.253038E-03, 1.145717E-03, -4.502812E-04, -3.332107E-04, 6.267339E-04, -2.187304E-04, -3.433549E-04, 4.605557E-04, -1.170669E-04, -2.659761E-04, 3.531265E-04, -1.514612E-04, -1.286679E-04, 2.995173E-04, -2.695237E-04, 3.019478E-05, 0.000000E+00, -1.246376E-02, -4.045242E-04, 1.731082E-01, 5.642715E-01, 8.730477E-01, 7.308750E-01, 2.766270E-01, -8.428403E-02, -1.371310E-01, -8.737504E-03, 5.335953E-02, 5.081491E-03, -2.280352E-02, 2.006839E-03, 9.266560E-03, -3.990474E-03, -2.493195E-03, 2.914859E-03, -3.015745E-04, -1.234054E-03, 8.425852E-04, 2.080462E-04, -6.595004E-04, 2.300181E-04, 4.817195E-04, -6.575309E-04, 2.435787E-05, 8.435843E-04, -1.016902E-03, 0.000000E+00, 0.000000E+00],
  [3.374377E-02, 8.688152E-02, -2.753557E-01, -1.440898E+00, -2.858579E+00, -3.220970E+00, -2.060236E+00, -4.660448E-01, 2.959158E-01, 1.964824E-01, -3.144908E-02, -4.524606E-02, 6.598314E-03, 8.297135E-03, -2.347776E-03, -6.441559E-04, 4.177710E-04, -3.922138E-04, 3.781432E-04, 1.064602E-04, -5.322579E-04, 3.757793E-04, 1.764712E-04, -5.343821E-04, 3.855708E-04, 4.472570E-05, -3.494380E-04, 3.899404E-04, -2.940438E-04, 1.218368E-04, 0.000000E+00, 2.673267E-02, 9.074318E-02, 2.448485E-01, 5.590035E-01, 9.422334E-01, 1.030301E+00, 6.032807E-01, 2.905969E-02, -2.012370E-01, -7.524136E-02, 6.061074E-02, 3.333905E-02, -2.532739E-02, -1.018413E-02, 1.294246E-02, 3.678927E-04, -5.814187E-03, 2.503609E-03, 1.344484E-03, -2.043074E-03, 7.681852E-04, 5.730567E-04, -1.101696E-03, 6.787168E-04, 3.546029E-04, -1.164709E-03, 9.047668E-04, 4.039915E-04, -1.617253E-03, 0.000000E+00, 0.000000E+00],
  [-3.191397E-03, 7.016820E-02, 1.836100E-01, -3.921445E-02, -9.492365E-01, -2.060236E+00, -2.277069E+00, -1.301785E+00, -1.204133E-01, 3.063175E-01, 1.180645E-01, -5.597661E-02, -3.273318E-02, 1.256699E-02, 6.383251E-03, -3.192315E-03, -6.588831E-04, 5.149556E-04, -1.368158E-05, 1.447160E-04, -2.293212E-04, -1.619297E-06, 3.137743E-04, -3.480520E-04, -1.344603E-05, 4.076624E-04, -3.213660E-04, -2.059490E-04, 4.778567E-04, 2.727655E-06, 0.000000E+00, 2.305106E-02, 1.016727E-01, 2.664499E-01, 5.176591E-01, 8.064811E-01, 9.705362E-01, 7.788901E-01, 2.672099E-01, -1.360785E-01, -1.525436E-01, 1.198145E-02, 5.812313E-02, -3.975196E-03, -2.219641E-02, 5.706606E-03, 7.489497E-03, -4.963515E-03, -1.042662E-03, 2.523411E-03, -9.501647E-04, -2.830138E-04, 4.468888E-04, -4.632674E-04, 6.411751E-04, -3.671195E-04, -6.161357E-04, 1.437929E-03, -9.428731E-04, -8.150144E-04, 0.000000E+00, 0.000000E+00],
  [-3.746250E-03, -3.235611E-03, 8.563154E-02, 2.570247E-01, 1.812862E-01, -4.660448E-01, -1.301785E+00, -1.450913E+00, -7.255669E-01, 6.485364E-02, 2.493446E-01, 4.699136E-02, -6.117862E-02, -1.659320E-02, 1.532053E-02, 3.003923E-03, -3.639351E-03, -6.668164E-05, 5.009556E-04, -2.699286E-05, 9.588739E-05, -1.626515E-04, 6.590045E-05, -2.386681E-05, -1.186454E-04, 4.646227E-04, -4.829444E-04, -3.207871E-04, 1.303393E-03, -1.052928E-03, 0.000000E+00, -2.485137E-03, 1.365884E-02, 8.705076E-02, 2.399545E-01, 4.423331E-01, 6.166394E-01, 6.433573E-01, 4.219503E-01, 6.080461E-02, -1.367568E-01, -7.263937E-02, 3.702509E-02, 3.054641E-02, -1.488467E-02, -9.866681E-03, 7.947338E-03, 1.617142E-03, -3.891711E-03, 9.399412E-04, 1.354482E-03, -1.104212E-03, -2.628594E-04, 8.702221E-04, -1.609197E-04, -8.960626E-04, 9.087544E-04, 3.974139E-04, -1.686288E-03, 1.309998E-03, 0.000000E+00, 0.000000E+00],
  [3.862720E-04, -1.138545E-02, -2.267491E-02, 5.761683E-02, 2.544136E-01, 2.959158E-01, -1.204133E-01, -7.255669E-01, -8.476328E-01, -3.592921E-01, 1.256788E-01, 1.692400E-01, -1.366309E-04, -5.104804E-02, -2.673479E-03, 1.400258E-02, -1.394226E-04, -3.379504E-03, 3.030707E-04, 6.018413E-04, 1.574699E-04, -1.538139E-04, -3.669917E-04, 2.132144E-04, 4.236491E-04, -3.528996E-04, -5.885061E-04, 9.698847E-04, 2.711992E-04, -1.925588E-03, 0.000000E+00, -8.975078E-03, -3.680912E-02, -7.570910E-02, -8.014372E-02, -2.004973E-03, 1.521334E-01, 3.084707E-01, 3.533767E-01, 2.138593E-01, -8.816895E-03, -9.932861E-02, -2.749450E-02, 3.564137E-02, 1.247789E-02, -1.463014E-02, -2.545389E-03, 6.269441E-03, -1.107928E-03, -1.937662E-03, 1.461854E-03, -2.596001E-04, -4.388444E-04, 8.310803E-04, -7.816393E-04, -9.872858E-05, 1.269183E-03, -1.336765E-03, -2.453423E-04, 2.053898E-03, 0.000000E+00, 0.000000E+00],
  [4.559853E-04, 7.569301E-04, -1.599652E-02, -4.365152E-02, 9.762628E-03, 1.964824E-01, 3.063175E-01, 6.485364E-02, -3.592921E-01, -4.664002E-01, -1.613342E-01, 1.178243E-01, 9.890072E-02, -2.150026E-02, -3.472789E-02, 5.875620E-03, 1.018138E-02, -2.596676E-03, -2.556395E-03, 1.069858E-03, 6.949595E-04, -4.499223E-04, -5.260755E-04, 6.451925E-04, 4.226129E-04, -1.318670E-03, 4.666957E-04, 1.563364E-03, -2.154005E-03, -1.176802E-04, 0.000000E+00, 1.809456E-04, -1.112947E-02, -5.495568E-02, -1.310771E-01, -1.856304E-01, -1.478569E-01, -1.216978E-02, 1.389271E-01, 1.930719E-01, 1.043397E-01, -3.017432E-02, -6.279316E-02, -2.917169E-03, 2.645568E-02, 1.447408E-03, -1.079118E-02, 1.258746E-03, 3.986657E-03, -1.668144E-03, -1.124690E-03, 1.068091E-03, 3.450200E-04, -7.791325E-04, -2.256310E-04, 1.141295E-03, -4.730131E-04, -1.231317E-03, 1.824457E-03, -1.747534E-04, 0.000000E+00, 0.000000E+00],
  [-3.213703E-05, 2.157596E-03, 5.635746E-03, -1.043358E-02, -5.037686E-02, -3.144908E-02, 1.180645E-01, 2.493446E-01, 1.256788E-01, -1.613342E-01, -2.510222E-01, -6.816424E-02, 8.712452E-02, 5.098208E-02, -2.505798E-02, -1.955266E-02, 8.533249E-03, 5.536577E-03, -3.234496E-03, -9.197062E-04, 1.050148E-03, -3.050526E-04, -7.291829E-05, 6.528590E-04, -6.946690E-04, -5.726960E-04, 1.704585E-03, -6.012969E-04, -2.055993E-03, 2.886610E-03, 0.000000E+00, 3.132539E-03, 1.324667E-02, 2.340882E-02, 6.175115E-03, -5.620035E-02, -1.259342E-01, -1.312256E-01, -4.984902E-02, 5.710224E-02, 1.005133E-01, 4.859968E-02, -2.740312E-02, -3.486931E-02, 5.869594E-03, 1.615142E-02, -3.123883E-03, -6.307060E-03, 2.711934E-03, 1.613153E-03, -1.817180E-03, 4.736399E-04, 5.680717E-04, -1.088452E-03, 7.078326E-04, 6.163401E-04, -1.585491E-03, 7.711690E-04, 1.274552E-03, -2.217090E-03, 0.000000E+00, 0.000000E+00],
  [-1.034735E-04, -5.133124E-04, 2.376053E-03, 9.577250E-03, -1.227275E-03, -4.524606E-02, -5.597661E-02, 4.699136E-02, 1.692400E-01, 1.178243E-01, -6.816424E-02, -1.365701E-01, -2.814824E-02, 5.752136E-02, 2.378857E-02, -2.073375E-02, -9.467794E-03, 7.733374E-03, 2.606886E-03, -2.747274E-03, -6.718046E-04, 8.412843E-04, 6.909617E-04, -6.039933E-04, -1.006329E-03, 1.440006E-03, 5.029863E-04, -2.457396E-03, 1.406741E-03, 2.001688E-03, 0.000000E+00, -3.760113E-04, 3.428515E-03, 2.141195E-02, 5.322178E-02, 6.794485E-02, 2.906558E-02, -4.577565E-02, -8.610918E-02, -5.130107E-02, 1.958309E-02, 5.366136E-02, 2.385133E-02, -1.973434E-02, -1.848757E-02, 7.158827E-03, 8.939576E-03, -3.770611E-03, -3.370450E-03, 2.188857E-03, 9.768916E-04, -1.063782E-03, -4.339830E-04, 6.628462E-04, 5.019254E-04, -1.057368E-03, -7.444352E-05, 1.504112E-03, -1.180240E-03, -8.239295E-04, 0.000000E+00, 0.000000E+00],
  [5.654735E-06, -4.381047E-04, -1.895030E-03, 1.466095E-04, 9.746300E-03, 6.598314E-03, -3.273318E-02, -6.117862E-02, -1.366309E-04, 9.890072E-02, 8.712452E-02, -2.814824E-02, -7.597463E-02, -1.124709E-02, 3.588694E-02, 9.706666E-03, -1.481173E-02, -3.333622E-03, 5.958236E-03, 1.596345E-04, -2.259616E-03, 8.873564E-04, 6.620981E-04, -1.306810E-03, 4.393999E-04, 1.383511E-03, -1.804683E-03, -3.740734E-04, 2.776032E-03, -2.050728E-03, 0.000000E+00, -1.026268E-03, -5.332320E-03, -1.094875E-02, -4.635535E-03, 2.430874E-02, 5.480996E-02, 4.501310E-02, -7.611261E-03, -4.935320E-02, -3.761264E-02, 6.278186E-03, 2.943947E-02, 1.174844E-02, -1.308806E-02, -9.233377E-03, 6.155516E-03, 4.285353E-03, -3.542740E-03, -1.052934E-03, 2.014293E-03, -5.726244E-04, -7.415268E-04, 1.146311E-03, -4.280976E-04, -9.029141E-04, 1.357672E-03, -1.322013E-04, -1.491918E-03, 1.493041E-03, 0.000000E+00, 0.000000E+00],
  [4.146814E-05, 2.840256E-04, 3.004194E-05, -2.151941E-03, -1.785461E-03, 8.297135E-03, 1.256699E-02, -1.659320E-02, -5.104804E-02, -2.150026E-02, 5.098208E-02, 5.752136E-02, -1.124709E-02, -4.298626E-02, -4.389137E-03, 2.158085E-02, 3.475855E-03, -9.406867E-03, -9.015923E-04, 3.566566E-03, 7.354019E-05, -1.004939E-03, -4.806625E-04, 3.745043E-04, 1.138563E-03, -1.059873E-03, -1.068689E-03, 2.260908E-03, -4.192189E-04, -2.463794E-03, 0.000000E+00, 3.653974E-04, -2.025348E-04, -6.473054E-03, -2.079645E-02, -3.006887E-02, -1.350981E-02, 2.192946E-02, 3.596590E-02, 9.156065E-03, -2.418490E-02, -2.433970E-02, 1.221532E-03, 1.630305E-02, 6.027408E-03, -8.029213E-03, -4.575353E-03, 4.104838E-03, 2.106362E-03, -2.154094E-03, -7.114958E-04, 9.992096E-04, 3.882519E-04, -5.557651E-04, -4.989120E-04, 7.946879E-04, 2.923548E-04, -1.211993E-03, 5.498218E-04, 9.770121E-04, 0.000000E+00, 0.000000E+00],
  [1.136523E-06, 6.833387E-05, 5.407379E-04, 8.235676E-04, -1.253038E-03, -2.347776E-03, 6.383251E-03, 1.532053E-02, -2.673479E-03, -3.472789E-02, -2.505798E-02, 2.378857E-02, 3.588694E-02, -4.389137E-03, -2.471869E-02, -1.307264E-03, 1.300873E-02, 4.758590E-04, -6.111893E-03, 7.536126E-04, 2.641579E-03, -1.287027E-03, -9.595884E-04, 1.544008E-03, -1.675558E-04, -1.583383E-03, 1.420505E-03, 8.029844E-04, -2.388591E-03, 1.105127E-03, 0.000000E+00, 2.581955E-04, 2.026896E-03, 5.777453E-03, 6.216426E-03, -4.701964E-03, -2.098149E-02, -2.013555E-02, 4.217869E-03, 2.323548E-02, 1.226236E-02, -1.088876E-02, -1.497459E-02, -2.645876E-04, 9.357003E-03, 3.038979E-03, -5.144360E-03, -1.998784E-03, 3.036795E-03, 4.696332E-04, -1.767934E-03, 5.595869E-04, 7.408659E-04, -9.902089E-04, 1.884431E-04, 8.537925E-04, -9.353965E-04, -1.627669E-04, 1.160518E-03, -7.966557E-04, 0.000000E+00, 0.000000E+00],
  [-4.353635E-05, -1.693266E-04, -2.436927E-04, 3.388961E-04, 1.145717E-03, -6.441559E-04, -3.192315E-03, 3.003923E-03, 1.400258E-02, 5.875620E-03, -1.955266E-02, -2.073375E-02, 9.706666E-03, 2.158085E-02, -1.307264E-03, -1.405682E-02, -4.163163E-04, 7.342658E-03, -8.707761E-05, -3.164592E-03, 2.473921E-04, 9.829419E-04, 2.517686E-04, -2.975590E-04, -9.002176E-04, 7.406134E-04, 9.646658E-04, -1.659522E-03, 5.801092E-05, 1.899037E-03, 0.000000E+00, -2.117712E-04, -5.446595E-04, 8.580591E-04, 6.778262E-03, 1.377454E-02, 1.038421E-02, -5.734716E-03, -1.560548E-02, -4.123730E-03, 1.234581E-02, 1.011130E-02, -4.281458E-03, -8.681674E-03, -6.689854E-04, 5.086676E-03, 1.683687E-03, -2.809192E-03, -1.135058E-03, 1.572981E-03, 5.291371E-04, -8.244434E-04, -3.217972E-04, 4.926609E-04, 3.491997E-04, -5.736848E-04, -2.209290E-04, 7.921213E-04, -2.562644E-04, -6.864727E-04, 0.000000E+00, 0.000000E+00]]

/-- `Daejeon16_public_v2.f90` 580-595. -/
def coup3pf_2 : List (List Num) := [
  [2.641142E-05, 5.360033E-05, -9.841260E-05, -5.310192E-04, -4.502812E-04, 4.177710E-04, -6.588831E-04, -3.639351E-03, -1.394226E-04, 1.018138E-02, 8.533249E-03, -9.467794E-03, -1.481173E-02, 3.475855E-03, 1.300873E-02, -4.163163E-04, -8.420118E-03, 3.405340E-04, 4.699587E-03, -9.371624E-04, -2.347326E-03, 1.306942E-03, 9.441660E-04, -1.462249E-03, 7.765208E-05, 1.370677E-03, -1.060050E-03, -6.907634E-04, 1.698254E-03, -6.510676E-04, 0.000000E+00, -1.802130E-05, -5.757768E-04, -2.587611E-03, -4.835450E-03, -2.498080E-03, 5.686719E-03, 9.934634E-03, 1.436913E-03, -9.440393E-03, -6.163730E-03, 5.634829E-03, 7.284649E-03, -1.389557E-03, -5.272707E-03, -5.307724E-04, 3.163046E-03, 6.845202E-04, -1.976262E-03, -1.383951E-04, 1.240539E-03, -4.308480E-04, -5.811551E-04, 7.206904E-04, -6.073036E-05, -6.374199E-04, 5.741573E-04, 1.997774E-04, -7.484752E-04, 3.965429E-04, 0.000000E+00, 0.000000E+00],
  [2.885968E-05, 8.736767E-05, 1.556532E-04, 8.420577E-05, -3.332107E-04, -3.922138E-04, 5.149556E-04, -6.668164E-05, -3.379504E-03, -2.596676E-03, 5.536577E-03, 7.733374E-03, -3.333622E-03, -9.406867E-03, 4.758590E-04, 7.342658E-03, 3.405340E-04, -4.508513E-03, -9.291788E-05, 2.279413E-03, -5.138900E-05, -9.055436E-04, -2.030594E-04, 3.970896E-04, 5.663271E-04, -6.169983E-04, -5.444562E-04, 1.103783E-03, -1.274906E-04, -1.116345E-03, 0.000000E+00, 8.590028E-05, 4.344220E-04, 6.607206E-04, -9.795212E-04, -4.964805E-03, -6.533263E-03, -8.550754E-04, 6.132702E-03, 3.737590E-03, -4.519362E-03, -5.052218E-03, 2.040169E-03, 4.363555E-03, -1.424734E-04, -2.736374E-03, -5.835465E-04, 1.519031E-03, 6.413108E-04, -9.133015E-04, -4.484458E-04, 5.958889E-04, 2.851901E-04, -4.363735E-04, -2.025523E-04, 4.292740E-04, 7.633361E-05, -4.716121E-04, 1.743145E-04, 3.698111E-04, 0.000000E+00, 0.000000E+00],
  [-6.279732E-05, -1.196071E-04, -2.372295E-05, 3.092930E-04, 6.267339E-04, 3.781432E-04, -1.368158E-05, 5.009556E-04, 3.030707E-04, -2.556395E-03, -3.234496E-03, 2.606886E-03, 5.958236E-03, -9.015923E-04, -6.111893E-03, -8.707761E-05, 4.699587E-03, -9.291788E-05, -3.096852E-03, 6.391140E-04, 1.782288E-03, -1.039888E-03, -7.671232E-04, 1.182966E-03, -7.460298E-05, -1.012685E-03, 7.782537E-04, 4.196162E-04, -1.089514E-03, 4.607769E-04, 0.000000E+00, -2.849184E-05, 4.142026E-05, 7.635687E-04, 2.486965E-03, 3.351614E-03, 4.813864E-04, -3.922969E-03, -3.030287E-03, 2.793185E-03, 3.953849E-03, -1.643153E-03, -3.940170E-03, 5.077713E-04, 2.985520E-03, 5.673336E-05, -1.878251E-03, -1.272657E-04, 1.139209E-03, -2.969138E-05, -7.238208E-04, 2.794850E-04, 3.709792E-04, -4.480164E-04, 5.460270E-06, 4.103776E-04, -3.237758E-04, -1.557445E-04, 4.437652E-04, -1.983078E-04, 0.000000E+00, 0.000000E+00],
  [4.286374E-05, 3.640761E-05, -1.027913E-04, -2.833211E-04, -2.187304E-04, 1.064602E-04, 1.447160E-04, -2.699286E-05, 6.018413E-04, 1.069858E-03, -9.197062E-04, -2.747274E-03, 1.596345E-04, 3.566566E-03, 7.536126E-04, -3.164592E-03, -9.371624E-04, 2.279413E-03, 6.391140E-04, -1.429001E-03, -3.594627E-04, 8.224313E-04, 2.835746E-04, -5.572767E-04, -2.826844E-04, 5.964297E-04, 1.123741E-04, -6.833059E-04, 2.919895E-04, 4.761404E-04, 0.000000E+00, -2.583133E-05, -2.031005E-04, -6.172449E-04, -7.137719E-04, 5.530263E-04, 2.475957E-03, 2.014206E-03, -1.214997E-03, -2.425624E-03, 5.495552E-04, 2.435668E-03, -2.009644E-05, -2.038250E-03, -3.505412E-04, 1.358096E-03, 4.594918E-04, -7.818561E-04, -4.426018E-04, 4.797520E-04, 3.749208E-04, -3.889580E-04, -2.497901E-04, 3.587371E-04, 1.107614E-04, -3.306162E-04, 2.744869E-05, 2.779587E-04, -1.658093E-04, -1.559870E-04, 0.000000E+00, 0.000000E+00],
  [1.112007E-05, 7.272126E-05, 1.229685E-04, 1.347686E-06, -3.433549E-04, -5.322579E-04, -2.293212E-04, 9.588739E-05, 1.574699E-04, 6.949595E-04, 1.050148E-03, -6.718046E-04, -2.259616E-03, 7.354019E-05, 2.641579E-03, 2.473921E-04, -2.347326E-03, -5.138900E-05, 1.782288E-03, -3.594627E-04, -1.150572E-03, 6.905486E-04, 5.259459E-04, -8.091230E-04, 5.472871E-05, 6.553043E-04, -5.010757E-04, -2.282379E-04, 6.284927E-04, -2.907119E-04, 0.000000E+00, 3.140541E-05, 1.034808E-04, -5.629477E-06, -8.015222E-04, -1.974420E-03, -1.637268E-03, 8.489178E-04, 2.132728E-03, -2.088066E-04, -2.155213E-03, -5.599689E-06, 2.049493E-03, 1.197770E-04, -1.656449E-03, -8.646203E-05, 1.128057E-03, -2.983686E-05, -6.753833E-04, 1.223874E-04, 3.812865E-04, -1.880986E-04, -1.959146E-04, 2.493626E-04, 1.432367E-05, -2.414742E-04, 1.639634E-04, 1.137988E-04, -2.523225E-04, 9.247480E-05, 0.000000E+00, 0.000000E+00],
  [-5.316561E-05, -1.095594E-04, -3.770052E-05, 2.102898E-04, 4.605557E-04, 3.757793E-04, -1.619297E-06, -1.626515E-04, -1.538139E-04, -4.499223E-04, -3.050526E-04, 8.412843E-04, 8.873564E-04, -1.004939E-03, -1.287027E-03, 9.829419E-04, 1.306942E-03, -9.055436E-04, -1.039888E-03, 8.224313E-04, 6.905486E-04, -7.393429E-04, -3.792476E-04, 6.729349E-04, 9.908043E-05, -5.946127E-04, 1.858248E-04, 4.085845E-04, -4.054890E-04, -7.278180E-05, 0.000000E+00, -8.141873E-06, 1.547742E-05, 2.234772E-04, 7.422148E-04, 1.035059E-03, 1.709924E-04, -1.203138E-03, -9.057584E-04, 8.744581E-04, 1.037330E-03, -7.241225E-04, -9.879763E-04, 6.355087E-04, 8.490371E-04, -5.156930E-04, -6.434019E-04, 3.876483E-04, 4.490358E-04, -2.949335E-04, -3.125951E-04, 2.665716E-04, 2.007033E-04, -2.806547E-04, -6.354421E-05, 2.640648E-04, -7.883894E-05, -1.800191E-04, 1.778049E-04, 3.530514E-05, 0.000000E+00, 0.000000E+00],
  [5.434166E-05, 4.923532E-05, -9.152143E-05, -2.208404E-04, -1.170669E-04, 1.764712E-04, 3.137743E-04, 6.590045E-05, -3.669917E-04, -5.260755E-04, -7.291829E-05, 6.909617E-04, 6.620981E-04, -4.806625E-04, -9.595884E-04, 2.517686E-04, 9.441660E-04, -2.030594E-04, -7.671232E-04, 2.835746E-04, 5.259459E-04, -3.792476E-04, -2.633658E-04, 4.128335E-04, 6.898303E-06, -3.436135E-04, 2.007049E-04, 1.614544E-04, -2.818250E-04, 6.873466E-05, 0.000000E+00, -1.621030E-05, -6.538624E-05, -7.865200E-05, 9.007032E-05, 4.331023E-04, 5.035807E-04, -6.528482E-05, -5.403923E-04, 5.587606E-06, 6.228862E-04, -3.733990E-05, -7.369178E-04, 2.624563E-05, 7.076525E-04, -4.375302E-05, -5.527227E-04, 9.662208E-05, 3.609359E-04, -1.358842E-04, -1.986086E-04, 1.414887E-04, 9.244994E-05, -1.367711E-04, -1.931910E-05, 1.326864E-04, -6.186727E-05, -8.605683E-05, 1.241610E-04, -1.638235E-05, 0.000000E+00, 0.000000E+00],
  [-2.242632E-05, 4.583927E-05, 1.726350E-04, 1.037756E-04, -2.659761E-04, -5.343821E-04, -3.480520E-04, -2.386681E-05, 2.132144E-04, 6.451925E-04, 6.528590E-04, -6.039933E-04, -1.306810E-03, 3.745043E-04, 1.544008E-03, -2.975590E-04, -1.462249E-03, 3.970896E-04, 1.182966E-03, -5.572767E-04, -8.091230E-04, 6.729349E-04, 4.128335E-04, -6.929646E-04, -2.873868E-05, 5.785972E-04, -2.972715E-04, -2.964541E-04, 4.457005E-04, -7.923306E-05, 0.000000E+00, 2.683561E-05, 7.733420E-05, -2.463940E-05, -5.338057E-04, -1.142004E-03, -7.746680E-04, 7.101714E-04, 1.255332E-03, -3.129631E-04, -1.363431E-03, 1.198699E-04, 1.281276E-03, -7.915832E-05, -1.059845E-03, 1.317295E-04, 7.784336E-04, -1.965383E-04, -5.127306E-04, 2.286649E-04, 3.098164E-04, -2.365583E-04, -1.672340E-04, 2.437955E-04, 4.003531E-05, -2.319571E-04, 9.773652E-05, 1.451782E-04, -1.909104E-04, 1.527360E-05, 0.000000E+00, 0.000000E+00],
  [-1.286695E-05, -8.877316E-05, -1.332106E-04, 3.204939E-05, 3.531265E-04, 3.855708E-04, -1.344603E-05, -1.186454E-04, 4.236491E-04, 4.226129E-04, -6.946690E-04, -1.006329E-03, 4.393999E-04, 1.138563E-03, -1.675558E-04, -9.002176E-04, 7.765208E-05, 5.663271E-04, -7.460298E-05, -2.826844E-04, 5.472871E-05, 9.908043E-05, 6.898303E-06, -2.873868E-05, -7.548693E-05, 5.924137E-05, 8.964713E-05, -1.344779E-04, -1.012926E-05, 1.549993E-04, 0.000000E+00, -1.884686E-05, -6.838076E-05, -6.511078E-05, 2.005280E-04, 7.114369E-04, 8.281753E-04, 2.276974E-05, -8.445593E-04, -4.511219E-04, 6.161110E-04, 6.201147E-04, -2.931652E-04, -5.220257E-04, 7.323155E-05, 3.363817E-04, 2.242021E-05, -1.927221E-04, -4.823343E-05, 1.138381E-04, 4.332795E-05, -7.414871E-05, -3.064578E-05, 5.185611E-05, 2.448710E-05, -4.719372E-05, -1.701630E-05, 5.745657E-05, -1.182736E-05, -5.211278E-05, 0.000000E+00, 0.000000E+00],
  [2.848043E-05, 4.754246E-05, -1.562790E-05, -1.287058E-04, -1.514612E-04, 4.472570E-05, 4.076624E-04, 4.646227E-04, -3.528996E-04, -1.318670E-03, -5.726960E-04, 1.440006E-03, 1.383511E-03, -1.059873E-03, -1.583383E-03, 7.406134E-04, 1.370677E-03, -6.169983E-04, -1.012685E-03, 5.964297E-04, 6.553043E-04, -5.946127E-04, -3.436135E-04, 5.785972E-04, 5.924137E-05, -5.092748E-04, 2.110837E-04, 3.177350E-04, -3.895620E-04, -1.851148E-07, 0.000000E+00, -3.870286E-06, 1.543535E-05, 1.564412E-04, 4.210173E-04, 4.238315E-04, -2.451064E-04, -9.759299E-04, -4.718302E-04, 9.032866E-04, 9.315903E-04, -6.414939E-04, -1.083576E-03, 3.758929E-04, 9.558491E-04, -2.430903E-04, -7.188712E-04, 2.136897E-04, 4.894686E-04, -2.217936E-04, -3.060273E-04, 2.334210E-04, 1.631507E-04, -2.381301E-04, -3.762401E-05, 2.204704E-04, -8.638381E-05, -1.454956E-04, 1.781240E-04, -2.594505E-07, 0.000000E+00, 0.000000E+00],
  [-2.357370E-05, 3.149042E-05, 1.697501E-04, 1.582684E-04, -1.286679E-04, -3.494380E-04, -3.213660E-04, -4.829444E-04, -5.885061E-04, 4.666957E-04, 1.704585E-03, 5.029863E-04, -1.804683E-03, -1.068689E-03, 1.420505E-03, 9.646658E-04, -1.060050E-03, -5.444562E-04, 7.782537E-04, 1.123741E-04, -5.010757E-04, 1.858248E-04, 2.007049E-04, -2.972715E-04, 8.964713E-05, 2.110837E-04, -2.830132E-04, 2.740158E-05, 2.680108E-04, -2.618596E-04, 0.000000E+00, 2.697731E-05, 7.887083E-05, -3.021038E-05, -5.721205E-04, -1.236741E-03, -9.013729E-04, 7.010773E-04, 1.542066E-03, 3.680673E-05, -1.568134E-03, -5.554952E-04, 1.181480E-03, 6.340700E-04, -7.530167E-04, -4.456830E-04, 4.500136E-04, 2.230106E-04, -2.609009E-04, -6.430264E-05, 1.402949E-04, -2.659992E-05, -5.232498E-05, 6.643737E-05, -2.510064E-05, -5.683266E-05, 8.834320E-05, -7.245514E-06, -9.936471E-05, 9.478255E-05, 0.000000E+00, 0.000000E+00],
  [1.284262E-05, -7.186957E-05, -2.090242E-04, -1.084523E-04, 2.995173E-04, 3.899404E-04, -2.059490E-04, -3.207871E-04, 9.698847E-04, 1.563364E-03, -6.012969E-04, -2.457396E-03, -3.740734E-04, 2.260908E-03, 8.029844E-04, -1.659522E-03, -6.907634E-04, 1.103783E-03, 4.196162E-04, -6.833059E-04, -2.282379E-04, 4.085845E-04, 1.614544E-04, -2.964541E-04, -1.344779E-04, 3.177350E-04, 2.740158E-05, -3.452634E-04, 1.837238E-04, 2.164428E-04, 0.000000E+00, -3.204680E-05, -1.469718E-04, -2.565265E-04, -3.275257E-06, 8.508483E-04, 1.552139E-03, 7.652097E-04, -1.079756E-03, -1.464140E-03, 3.198367E-04, 1.469711E-03, 2.667418E-04, -1.047916E-03, -4.487313E-04, 6.317506E-04, 3.994683E-04, -3.737478E-04, -2.960124E-04, 2.482660E-04, 2.035477E-04, -1.984618E-04, -1.269529E-04, 1.832480E-04, 5.455304E-05, -1.750985E-04, 2.484847E-05, 1.458745E-04, -1.052426E-04, -6.812265E-05, 0.000000E+00, 0.000000E+00],
  [-9.012671E-06, 3.732909E-05, 9.852468E-05, 8.448154E-06, -2.695237E-04, -2.940438E-04, 4.778567E-04, 1.303393E-03, 2.711992E-04, -2.154005E-03, -2.055993E-03, 1.406741E-03, 2.776032E-03, -4.192189E-04, -2.388591E-03, 5.801092E-05, 1.698254E-03, -1.274906E-04, -1.089514E-03, 2.919895E-04, 6.284927E-04, -4.054890E-04, -2.818250E-04, 4.457005E-04, -1.012926E-05, -3.895620E-04, 2.680108E-04, 1.837238E-04, -4.005631E-04, 1.418212E-04, 0.000000E+00, 1.147424E-05, 1.080374E-04, 3.954025E-04, 7.652260E-04, 5.571144E-04, -7.083480E-04, -1.808458E-03, -7.963903E-04, 1.453429E-03, 1.612473E-03, -6.200444E-04, -1.574717E-03, 5.437407E-05, 1.142709E-03, 1.008722E-04, -7.375143E-04, -5.025371E-05, 4.644231E-04, -4.926621E-05, -2.838199E-04, 1.360489E-04, 1.390666E-04, -1.831771E-04, -6.563452E-07, 1.662088E-04, -1.202145E-04, -7.156956E-05, 1.745722E-04, -7.067445E-05, 0.000000E+00, 0.000000E+00],
  [1.187782E-05, 3.922025E-05, 8.048264E-05, 7.293504E-05, 3.019478E-05, 1.218368E-04, 2.727655E-06, -1.052928E-03, -1.925588E-03, -1.176802E-04, 2.886610E-03, 2.001688E-03, -2.050728E-03, -2.463794E-03, 1.105127E-03, 1.899037E-03, -6.510676E-04, -1.116345E-03, 4.607769E-04, 4.761404E-04, -2.907119E-04, -7.278180E-05, 6.873466E-05, -7.923306E-05, 1.549993E-04, -1.851148E-07, -2.618596E-04, 2.164428E-04, 1.418212E-04, -3.612370E-04, 0.000000E+00, 2.148516E-05, 3.970955E-05, -1.503942E-04, -8.681291E-04, -1.701775E-03, -1.201747E-03, 9.742276E-04, 2.250693E-03, 4.533235E-04, -1.947245E-03, -1.280776E-03, 1.060655E-03, 1.218456E-03, -4.277244E-04, -8.173934E-04, 1.507657E-04, 4.604401E-04, -5.828128E-05, -2.278399E-04, 2.200846E-05, 9.295885E-05, 1.505872E-05, -3.378047E-05, -5.893369E-05, 4.387171E-05, 7.744961E-05, -9.903019E-05, -3.196103E-05, 1.362372E-04, 0.000000E+00, 0.000000E+00],
  [0.000000E+00, 0.000000E+00, 0.000000E+00, 0.000000E+00, 0.000000E+00, 0.000000E+00, 0.000000E+00, 0.000000E+00, 0.000000E+00, 0.000000E+00, 0.000000E+00, 0.000000E+00, 0.000000E+00, 0.000000E+00, 0.000000E+00, 0.000000E+00, 0.000000E+00, 0.000000E+00, 0.000000E+00, 0.000000E+00, 0.000000E+00, 0.000000E+00, 0.000000E+00, 0.000000E+00, 0.000000E+00, 0.000000E+00, 0.000000E+00, 0.000000E+00, 0.000000E+00, 0.000000E+00, 0.000000E+00, 0.000000E+00, 0.000000E+00, 0.000000E+00, 0.000000E+00, 0.000000E+00, 0.000000E+00, 0.000000E+00, 0.000000E+00, 0.000000E+00, 0.000000E+00, 0.000000E+00, 0.000000E+00, 0.000000E+00, 0.000000E+00, 0.000000E+00, 0.000000E+00, 0.000000E+00, 0.000000E+00, 0.000000E+00, 0.000000E+00, 0.000000E+00, 0.000000E+00, 0.000000E+00, 0.000000E+00, 0.000000E+00, 0.000000E+00, 0.000000E+00, 0.000000E+00, 0.000000E+00, 0.000000E+00, 0.000000E+00],
  [1.283915E+00, 6.612567E-01, 1.478357E-01, -2.054569E-02, -1.246376E-02, 2.673267E-02, 2.305106E-02, -2.485137E-03, -8.975078E-03, 1.809456E-04, 3.132539E-03, -3.760113E-04, -1.026268E-03, 3.653974E-04, 2.581955E-04, -2.117712E-04, -1.802130E-05, 8.590028E-05, -2.849184E-05, -2.583133E-05, 3.140541E-05, -8.141873E-06, -1.621030E-05, 2.683561E-05, -1.884686E-05, -3.870286E-06, 2.697731E-05, -3.204680E-05, 1.147424E-05, 2.148516E-05, 0.000000E+00, -4.429016E-01, -3.269112E-01, -1.217194E-01, -2.444661E-03, 1.829598E-02, 4.074968E-03, -2.890967E-03, -1.012381E-03, 6.144904E-04, 2.224351E-04, -1.739150E-04, -4.747972E-05, 6.342946E-05, 7.399478E-06, -3.231483E-05, 9.410902E-06, 1.566129E-05, -1.906835E-05, 5.436897E-06, 9.637143E-06, -1.448714E-05, 7.909183E-06, 2.549541E-06, -8.044720E-06, 5.680257E-06, 1.902962E-07, -2.998271E-06, 2.279226E-07, 4.680480E-06, 0.000000E+00, 0.000000E+00]]

/-- `Daejeon16_public_v2.f90` 596-611. -/
def coup3pf_3 : List (List Num) := [
  [8.166585E-01, 1.121933E+00, 5.269753E-01, 8.050228E-02, -4.045242E-04, 9.074318E-02, 1.016727E-01, 1.365884E-02, -3.680912E-02, -1.112947E-02, 1.324667E-02, 3.428515E-03, -5.332320E-03, -2.025348E-04, 2.026896E-03, -5.446595E-04, -5.757768E-04, 4.344220E-04, 4.142026E-05, -2.031005E-04, 1.034808E-04, 1.547742E-05, -6.538624E-05, 7.733420E-05, -6.838076E-05, 1.543535E-05, 7.887083E-05, -1.469718E-04, 1.080374E-04, 3.970955E-05, 0.000000E+00, -3.269112E-01, -5.204028E-01, -3.620944E-01, -1.015802E-01, 3.276129E-02, 3.135078E-02, -1.199055E-03, -7.420466E-03, 8.257347E-05, 1.927792E-03, -2.283952E-04, -5.374966E-04, 1.958204E-04, 1.303066E-04, -1.194859E-04, -3.085672E-06, 5.563604E-05, -3.145140E-05, -1.070776E-05, 3.071404E-05, -2.070954E-05, -5.992618E-06, 2.709833E-05, -2.552182E-05, 2.082499E-06, 2.422169E-05, -3.125041E-05, 1.229592E-05, 1.778648E-05, 0.000000E+00, 0.000000E+00],
  [1.744714E-01, 6.784605E-01, 7.602684E-01, 3.805214E-01, 1.731082E-01, 2.448485E-01, 2.664499E-01, 8.705076E-02, -7.570910E-02, -5.495568E-02, 2.340882E-02, 2.141195E-02, -1.094875E-02, -6.473054E-03, 5.777453E-03, 8.580591E-04, -2.587611E-03, 6.607206E-04, 7.635687E-04, -6.172449E-04, -5.629477E-06, 2.234772E-04, -7.865200E-05, -2.463940E-05, -6.511078E-05, 1.564412E-04, -3.021038E-05, -2.565265E-04, 3.954025E-04, -1.503942E-04, 0.000000E+00, -1.217194E-01, -3.620944E-01, -4.646812E-01, -2.708258E-01, -1.981519E-02, 6.794330E-02, 2.506019E-02, -1.370980E-02, -7.772101E-03, 3.851714E-03, 1.839438E-03, -1.433751E-03, -2.304046E-04, 5.246222E-04, -1.001212E-04, -1.484162E-04, 1.015024E-04, 1.472061E-05, -5.973698E-05, 3.733216E-05, 4.315501E-06, -3.533608E-05, 4.473966E-05, -2.836726E-05, -8.900854E-06, 4.739720E-05, -6.017586E-05, 3.262690E-05, 2.233376E-05, 0.000000E+00, 0.000000E+00],
  [-6.828868E-02, 1.004077E-01, 4.675388E-01, 6.347841E-01, 5.642715E-01, 5.590035E-01, 5.176591E-01, 2.399545E-01, -8.014372E-02, -1.310771E-01, 6.175115E-03, 5.322178E-02, -4.635535E-03, -2.079645E-02, 6.216426E-03, 6.778262E-03, -4.835450E-03, -9.795212E-04, 2.486965E-03, -7.137719E-04, -8.015222E-04, 7.422148E-04, 9.007032E-05, -5.338057E-04, 2.005280E-04, 4.210173E-04, -5.721205E-04, -3.275257E-06, 7.652260E-04, -8.681291E-04, 0.000000E+00, -2.444661E-03, -1.015802E-01, -2.708258E-01, -3.019922E-01, -1.184998E-01, 5.742200E-02, 6.900723E-02, 1.414690E-03, -2.094535E-02, -1.678614E-03, 6.279562E-03, -1.771677E-04, -1.884107E-03, 5.119821E-04, 4.653008E-04, -3.449705E-04, -3.138947E-05, 1.564787E-04, -7.240207E-05, -3.056723E-05, 5.878214E-05, -2.791019E-05, -8.828163E-06, 1.800595E-05, -4.051228E-06, -5.549114E-06, -8.522909E-06, 3.429032E-05, -3.605065E-05, 0.000000E+00, 0.000000E+00],
  [-2.758006E-02, -5.857962E-02, 1.317166E-01, 5.470553E-01, 8.730477E-01, 9.422334E-01, 8.064811E-01, 4.423331E-01, -2.004973E-03, -1.856304E-01, -5.620035E-02, 6.794485E-02, 2.430874E-02, -3.006887E-02, -4.701964E-03, 1.377454E-02, -2.498080E-03, -4.964805E-03, 3.351614E-03, 5.530263E-04, -1.974420E-03, 1.035059E-03, 4.331023E-04, -1.142004E-03, 7.114369E-04, 4.238315E-04, -1.236741E-03, 8.508483E-04, 5.571144E-04, -1.701775E-03, 0.000000E+00, 1.829598E-02, 3.276129E-02, -1.981519E-02, -1.184998E-01, -1.193787E-01, 3.852998E-03, 8.167129E-02, 3.889845E-02, -1.966173E-02, -1.684805E-02, 5.831028E-03, 5.344763E-03, -2.584308E-03, -1.278570E-03, 1.212207E-03, 5.160284E-05, -4.609346E-04, 1.934913E-04, 8.494635E-05, -1.465148E-04, 7.331052E-05, 2.670344E-05, -9.400675E-05, 8.987583E-05, -5.519316E-06, -1.026771E-04, 1.338519E-04, -3.471021E-05, -1.254328E-04, 0.000000E+00, 0.000000E+00],
  [1.750062E-02, 1.361628E-02, 4.627615E-02, 2.938572E-01, 7.308750E-01, 1.030301E+00, 9.705362E-01, 6.166394E-01, 1.521334E-01, -1.478569E-01, -1.259342E-01, 2.906558E-02, 5.480996E-02, -1.350981E-02, -2.098149E-02, 1.038421E-02, 5.686719E-03, -6.533263E-03, 4.813864E-04, 2.475957E-03, -1.637268E-03, 1.709924E-04, 5.035807E-04, -7.746680E-04, 8.281753E-04, -2.451064E-04, -9.013729E-04, 1.552139E-03, -7.083480E-04, -1.201747E-03, 0.000000E+00, 4.074968E-03, 3.135078E-02, 6.794330E-02, 5.742200E-02, 3.852998E-03, -1.174463E-03, 5.218687E-02, 5.931467E-02, 4.359898E-03, -2.501640E-02, -5.230956E-03, 9.395539E-03, 1.220951E-03, -3.611336E-03, 3.851707E-04, 1.211049E-03, -5.720542E-04, -2.200225E-04, 3.138622E-04, -8.000647E-05, -5.083731E-05, 4.240642E-05, -3.975467E-05, 8.289648E-05, -7.420054E-05, -5.281275E-05, 2.024102E-04, -1.907996E-04, -4.148026E-05, 0.000000E+00, 0.000000E+00],
  [4.299249E-03, 2.350437E-02, 2.970410E-02, 7.144603E-02, 2.766270E-01, 6.032807E-01, 7.788901E-01, 6.433573E-01, 3.084707E-01, -1.216978E-02, -1.312256E-01, -4.577565E-02, 4.501310E-02, 2.192946E-02, -2.013555E-02, -5.734716E-03, 9.934634E-03, -8.550754E-04, -3.922969E-03, 2.014206E-03, 8.489178E-04, -1.203138E-03, -6.528482E-05, 7.101714E-04, 2.276974E-05, -9.759299E-04, 7.010773E-04, 7.652097E-04, -1.808458E-03, 9.742276E-04, 0.000000E+00, -2.890967E-03, -1.199055E-03, 2.506019E-02, 6.900723E-02, 8.167129E-02, 5.218687E-02, 3.612479E-02, 4.405285E-02, 2.458465E-02, -1.253763E-02, -1.590065E-02, 3.829945E-03, 6.548369E-03, -2.302850E-03, -2.101849E-03, 1.483260E-03, 3.273639E-04, -7.347307E-04, 1.837684E-04, 2.479483E-04, -2.104573E-04, -4.225563E-05, 1.662336E-04, -4.976950E-05, -1.465761E-04, 1.767855E-04, 2.937817E-05, -2.681941E-04, 2.537491E-04, 0.000000E+00, 0.000000E+00],
  [-5.988488E-03, -1.275879E-02, -2.282618E-02, -6.135080E-02, -8.428403E-02, 2.905969E-02, 2.672099E-01, 4.219503E-01, 3.533767E-01, 1.389271E-01, -4.984902E-02, -8.610918E-02, -7.611261E-03, 3.596590E-02, 4.217869E-03, -1.560548E-02, 1.436913E-03, 6.132702E-03, -3.030287E-03, -1.214997E-03, 2.132728E-03, -9.057584E-04, -5.403923E-04, 1.255332E-03, -8.445593E-04, -4.718302E-04, 1.542066E-03, -1.079756E-03, -7.963903E-04, 2.250693E-03, 0.000000E+00, -1.012381E-03, -7.420466E-03, -1.370980E-02, 1.414690E-03, 3.889845E-02, 5.931467E-02, 4.405285E-02, 2.701356E-02, 2.179663E-02, 5.245453E-03, -1.196078E-02, -6.151208E-03, 5.364538E-03, 2.430085E-03, -2.666304E-03, -3.216193E-04, 1.187446E-03, -3.643154E-04, -3.119068E-04, 3.523101E-04, -1.116649E-04, -1.061440E-04, 2.059739E-04, -1.489062E-04, -5.376302E-05, 2.514258E-04, -2.278227E-04, -5.726888E-05, 3.530281E-04, 0.000000E+00, 0.000000E+00],
  [9.692234E-05, -8.439968E-03, -2.566110E-02, -6.215393E-02, -1.371310E-01, -2.012370E-01, -1.360785E-01, 6.080461E-02, 2.138593E-01, 1.930719E-01, 5.710224E-02, -5.130107E-02, -4.935320E-02, 9.156065E-03, 2.323548E-02, -4.123730E-03, -9.440393E-03, 3.737590E-03, 2.793185E-03, -2.425624E-03, -2.088066E-04, 8.744581E-04, 5.587606E-06, -3.129631E-04, -4.511219E-04, 9.032866E-04, 3.680673E-05, -1.464140E-03, 1.453429E-03, 4.533235E-04, 0.000000E+00, 6.144904E-04, 8.257347E-05, -7.772101E-03, -2.094535E-02, -1.966173E-02, 4.359898E-03, 2.458465E-02, 2.179663E-02, 1.367201E-02, 9.866592E-03, -3.436651E-04, -7.767801E-03, -1.497619E-03, 4.011824E-03, 3.039596E-04, -1.831289E-03, 3.754258E-04, 6.213706E-04, -3.851511E-04, -8.892578E-05, 1.716353E-04, -1.842184E-06, -6.942639E-05, -4.589136E-05, 1.417700E-04, -2.821739E-05, -1.986320E-04, 2.494248E-04, 1.324226E-06, 0.000000E+00, 0.000000E+00],
  [1.875060E-03, 6.910338E-03, 1.081034E-02, 1.115949E-02, -8.737504E-03, -7.524136E-02, -1.525436E-01, -1.367568E-01, -8.816895E-03, 1.043397E-01, 1.005133E-01, 1.958309E-02, -3.761264E-02, -2.418490E-02, 1.226236E-02, 1.234581E-02, -6.163730E-03, -4.519362E-03, 3.953849E-03, 5.495552E-04, -2.155213E-03, 1.037330E-03, 6.228862E-04, -1.363431E-03, 6.161110E-04, 9.315903E-04, -1.568134E-03, 3.198367E-04, 1.612473E-03, -1.947245E-03, 0.000000E+00, 2.224351E-04, 1.927792E-03, 3.851714E-03, -1.678614E-03, -1.684805E-02, -2.501640E-02, -1.253763E-02, 5.245453E-03, 9.866592E-03, 7.463065E-03, 4.636416E-03, -1.765558E-03, -4.484703E-03, 3.995170E-04, 2.451286E-03, -5.712193E-04, -9.981816E-04, 6.001038E-04, 1.866729E-04, -3.831786E-04, 1.571301E-04, 1.153667E-04, -2.276193E-04, 1.119369E-04, 1.317432E-04, -2.557940E-04, 9.666378E-05, 2.056548E-04, -3.198670E-04, 0.000000E+00, 0.000000E+00],
  [-6.205193E-04, 1.663703E-03, 1.072547E-02, 2.871820E-02, 5.335953E-02, 6.061074E-02, 1.198145E-02, -7.263937E-02, -9.932861E-02, -3.017432E-02, 4.859968E-02, 5.366136E-02, 6.278186E-03, -2.433970E-02, -1.088876E-02, 1.011130E-02, 5.634829E-03, -5.052218E-03, -1.643153E-03, 2.435668E-03, -5.599689E-06, -7.241225E-04, -3.733990E-05, 1.198699E-04, 6.201147E-04, -6.414939E-04, -5.554952E-04, 1.469711E-03, -6.200444E-04, -1.280776E-03, 0.000000E+00, -1.739150E-04, -2.283952E-04, 1.839438E-03, 6.279562E-03, 5.831028E-03, -5.230956E-03, -1.590065E-02, -1.196078E-02, -3.436651E-04, 4.636416E-03, 4.038474E-03, 2.110510E-03, -1.602403E-03, -2.325358E-03, 8.113391E-04, 1.255895E-03, -6.390422E-04, -4.114127E-04, 3.992833E-04, 2.252567E-05, -1.340960E-04, 1.158179E-05, 1.951964E-05, 7.622872E-05, -9.213455E-05, -6.133248E-05, 2.033382E-04, -1.194339E-04, -1.369718E-04, 0.000000E+00, 0.000000E+00],
  [-3.868984E-04, -3.079098E-03, -6.642405E-03, -6.559077E-03, 5.081491E-03, 3.333905E-02, 5.812313E-02, 3.702509E-02, -2.749450E-02, -6.279316E-02, -2.740312E-02, 2.385133E-02, 2.943947E-02, 1.221532E-03, -1.497459E-02, -4.281458E-03, 7.284649E-03, 2.040169E-03, -3.940170E-03, -2.009644E-05, 2.049493E-03, -9.879763E-04, -7.369178E-04, 1.281276E-03, -2.931652E-04, -1.083576E-03, 1.181480E-03, 2.667418E-04, -1.574717E-03, 1.060655E-03, 0.000000E+00, -4.747972E-05, -5.374966E-04, -1.433751E-03, -1.771677E-04, 5.344763E-03, 9.395539E-03, 3.829945E-03, -6.151208E-03, -7.767801E-03, -1.765558E-03, 2.110510E-03, 2.316489E-03, 1.030112E-03, -1.192903E-03, -1.174822E-03, 7.703102E-04, 5.918822E-04, -5.711875E-04, -1.024323E-04, 3.426811E-04, -1.386468E-04, -1.198428E-04, 1.968357E-04, -5.897704E-05, -1.439229E-04, 1.851142E-04, -3.351955E-06, -1.990517E-04, 1.818043E-04, 0.000000E+00, 0.000000E+00],
  [3.533020E-04, 3.758823E-04, -2.758675E-03, -1.131561E-02, -2.280352E-02, -2.532739E-02, -3.975196E-03, 3.054641E-02, 3.564137E-02, -2.917169E-03, -3.486931E-02, -1.973434E-02, 1.174844E-02, 1.630305E-02, -2.645876E-04, -8.681674E-03, -1.389557E-03, 4.363555E-03, 5.077713E-04, -2.038250E-03, 1.197770E-04, 6.355087E-04, 2.624563E-05, -7.915832E-05, -5.220257E-04, 3.758929E-04, 6.340700E-04, -1.047916E-03, 5.437407E-05, 1.218456E-03, 0.000000E+00, 6.342946E-05, 1.958204E-04, -2.304046E-04, -1.884107E-03, -2.584308E-03, 1.220951E-03, 6.548369E-03, 5.364538E-03, -1.497619E-03, -4.484703E-03, -1.602403E-03, 1.030112E-03, 1.329671E-03, 4.739046E-04, -7.720313E-04, -5.382549E-04, 5.206271E-04, 2.286741E-04, -3.164179E-04, -1.487285E-05, 1.161277E-04, -7.202777E-06, -1.684318E-05, -6.018411E-05, 5.418064E-05, 6.966091E-05, -1.387639E-04, 3.400874E-05, 1.316239E-04, 0.000000E+00, 0.000000E+00],
  [-3.430337E-05, 9.855590E-04, 3.580081E-03, 5.607673E-03, 2.006839E-03, -1.018413E-02, -2.219641E-02, -1.488467E-02, 1.247789E-02, 2.645568E-02, 5.869594E-03, -1.848757E-02, -1.308806E-02, 6.027408E-03, 9.357003E-03, -6.689854E-04, -5.272707E-03, -1.424734E-04, 2.985520E-03, -3.505412E-04, -1.656449E-03, 8.490371E-04, 7.076525E-04, -1.059845E-03, 7.323155E-05, 9.558491E-04, -7.530167E-04, -4.487313E-04, 1.142709E-03, -4.277244E-04, 0.000000E+00, 7.399478E-06, 1.303066E-04, 5.246222E-04, 5.119821E-04, -1.278570E-03, -3.611336E-03, -2.302850E-03, 2.430085E-03, 4.011824E-03, 3.995170E-04, -2.325358E-03, -1.192903E-03, 4.739046E-04, 7.990786E-04, 2.415912E-04, -5.206247E-04, -2.470388E-04, 3.946302E-04, 4.975401E-05, -2.621373E-04, 1.020489E-04, 1.106886E-04, -1.520283E-04, 2.255993E-05, 1.206153E-04, -1.155338E-04, -2.914555E-05, 1.380673E-04, -8.173513E-05, 0.000000E+00, 0.000000E+00],
  [-8.558081E-05, -5.158930E-04, -2.072639E-04, 3.006710E-03, 9.266560E-03, 1.294246E-02, 5.706606E-03, -9.866681E-03, -1.463014E-02, 1.447408E-03, 1.615142E-02, 7.158827E-03, -9.233377E-03, -8.029213E-03, 3.038979E-03, 5.086676E-03, -5.307724E-04, -2.736374E-03, 5.673336E-05, 1.358096E-03, -8.646203E-05, -5.156930E-04, -4.375302E-05, 1.317295E-04, 3.363817E-04, -2.430903E-04, -4.456830E-04, 6.317506E-04, 1.008722E-04, -8.173934E-04, 0.000000E+00, -3.231483E-05, -1.194859E-04, -1.001212E-04, 4.653008E-04, 1.212207E-03, 3.851707E-04, -2.101849E-03, -2.666304E-03, 3.039596E-04, 2.451286E-03, 8.113391E-04, -1.174822E-03, -7.720313E-04, 2.415912E-04, 4.417436E-04, 1.068812E-04, -2.804751E-04, -1.096920E-04, 1.897006E-04, 2.965614E-05, -9.298269E-05, -5.594275E-06, 2.962659E-05, 3.398009E-05, -3.651896E-05, -4.297942E-05, 7.761561E-05, -3.980856E-06, -8.338668E-05, 0.000000E+00, 0.000000E+00],
  [5.113023E-05, -1.395453E-04, -1.339124E-03, -3.474489E-03, -3.990474E-03, 3.678927E-04, 7.489497E-03, 7.947338E-03, -2.545389E-03, -1.079118E-02, -3.123883E-03, 8.939576E-03, 6.155516E-03, -4.575353E-03, -5.144360E-03, 1.683687E-03, 3.163046E-03, -5.835465E-04, -1.878251E-03, 4.594918E-04, 1.128057E-03, -6.434019E-04, -5.527227E-04, 7.784336E-04, 2.242021E-05, -7.188712E-04, 4.500136E-04, 3.994683E-04, -7.375143E-04, 1.507657E-04, 0.000000E+00, 9.410902E-06, -3.085672E-06, -1.484162E-04, -3.449705E-04, 5.160284E-05, 1.211049E-03, 1.483260E-03, -3.216193E-04, -1.831289E-03, -5.712193E-04, 1.255895E-03, 7.703102E-04, -5.382549E-04, -5.206247E-04, 1.068812E-04, 2.955229E-04, 4.476358E-05, -2.157539E-04, -1.572255E-05, 1.650623E-04, -6.252766E-05, -8.551336E-05, 1.033437E-04, -2.734371E-06, -8.744188E-05, 6.626949E-05, 3.236389E-05, -8.514871E-05, 3.214907E-05, 0.000000E+00, 0.000000E+00],
  [-1.481970E-05, 2.400382E-04, 6.899610E-04, 1.981604E-04, -2.493195E-03, -5.814187E-03, -4.963515E-03, 1.617142E-03, 6.269441E-03, 1.258746E-03, -6.307060E-03, -3.770611E-03, 4.285353E-03, 4.104838E-03, -1.998784E-03, -2.809192E-03, 6.845202E-04, 1.519031E-03, -1.272657E-04, -7.818561E-04, -2.983686E-05, 3.876483E-04, 9.662208E-05, -1.965383E-04, -1.927221E-04, 2.136897E-04, 2.230106E-04, -3.737478E-04, -5.025371E-05, 4.604401E-04, 0.000000E+00, 1.566129E-05, 5.563604E-05, 1.015024E-04, -3.138947E-05, -4.609346E-04, -5.720542E-04, 3.273639E-04, 1.187446E-03, 3.754258E-04, -9.981816E-04, -6.390422E-04, 5.918822E-04, 5.206271E-04, -2.470388E-04, -2.804751E-04, 4.476358E-05, 1.311322E-04, 4.044227E-05, -8.594846E-05, -3.974455E-05, 6.231774E-05, 2.005118E-05, -3.787947E-05, -1.697892E-05, 3.107693E-05, 1.654921E-05, -4.111114E-05, 1.087481E-06, 4.448215E-05, 0.000000E+00, 0.000000E+00]]

/-- `Daejeon16_public_v2.f90` 612-625. -/
def coup3pf_4 : List (List Num) := [
  [1.401175E-05, -5.148180E-05, 1.734030E-04, 1.343750E-03, 2.914859E-03, 2.503609E-03, -1.042662E-03, -3.891711E-03, -1.107928E-03, 3.986657E-03, 2.711934E-03, -3.370450E-03, -3.542740E-03, 2.106362E-03, 3.036795E-03, -1.135058E-03, -1.976262E-03, 6.413108E-04, 1.139209E-03, -4.426018E-04, -6.753833E-04, 4.490358E-04, 3.609359E-04, -5.127306E-04, -4.823343E-05, 4.894686E-04, -2.609009E-04, -2.960124E-04, 4.644231E-04, -5.828128E-05, 0.000000E+00, -1.906835E-05, -3.145140E-05, 1.472061E-05, 1.564787E-04, 1.934913E-04, -2.200225E-04, -7.347307E-04, -3.643154E-04, 6.213706E-04, 6.001038E-04, -4.114127E-04, -5.711875E-04, 2.286741E-04, 3.946302E-04, -1.096920E-04, -2.157539E-04, 4.044227E-05, 1.181765E-04, -1.547961E-05, -8.513052E-05, 3.565743E-05, 5.309347E-05, -6.035938E-05, -6.226055E-06, 5.769646E-05, -3.506795E-05, -2.820381E-05, 5.294125E-05, -1.214076E-05, 0.000000E+00, 0.000000E+00],
  [-1.409342E-05, -6.566919E-05, -3.376553E-04, -7.092073E-04, -3.015745E-04, 1.344484E-03, 2.523411E-03, 9.399412E-04, -1.937662E-03, -1.668144E-03, 1.613153E-03, 2.188857E-03, -1.052934E-03, -2.154094E-03, 4.696332E-04, 1.572981E-03, -1.383951E-04, -9.133015E-04, -2.969138E-05, 4.797520E-04, 1.223874E-04, -2.949335E-04, -1.358842E-04, 2.286649E-04, 1.138381E-04, -2.217936E-04, -6.430264E-05, 2.482660E-04, -4.926621E-05, -2.278399E-04, 0.000000E+00, 5.436897E-06, -1.070776E-05, -5.973698E-05, -7.240207E-05, 8.494635E-05, 3.138622E-04, 1.837684E-04, -3.119068E-04, -3.851511E-04, 1.866729E-04, 3.992833E-04, -1.024323E-04, -3.164179E-04, 4.975401E-05, 1.897006E-04, -1.572255E-05, -8.594846E-05, -1.547961E-05, 3.940272E-05, 3.377772E-05, -3.568991E-05, -2.615336E-05, 3.552133E-05, 1.102956E-05, -2.973249E-05, -1.195631E-06, 2.555562E-05, -7.842008E-06, -2.161298E-05, 0.000000E+00, 0.000000E+00],
  [-4.844841E-06, 4.677935E-05, 1.194309E-04, -1.987859E-04, -1.234054E-03, -2.043074E-03, -9.501647E-04, 1.354482E-03, 1.461854E-03, -1.124690E-03, -1.817180E-03, 9.768916E-04, 2.014293E-03, -7.114958E-04, -1.767934E-03, 5.291371E-04, 1.240539E-03, -4.484458E-04, -7.238208E-04, 3.749208E-04, 3.812865E-04, -3.125951E-04, -1.986086E-04, 3.098164E-04, 4.332795E-05, -3.060273E-04, 1.402949E-04, 2.035477E-04, -2.838199E-04, 2.200846E-05, 0.000000E+00, 9.637143E-06, 3.071404E-05, 3.733216E-05, -3.056723E-05, -1.465148E-04, -8.000647E-05, 2.479483E-04, 3.523101E-04, -8.892578E-05, -3.831786E-04, 2.252567E-05, 3.426811E-04, -1.487285E-05, -2.621373E-04, 2.965614E-05, 1.650623E-04, -3.974455E-05, -8.513052E-05, 3.377772E-05, 4.190447E-05, -2.650616E-05, -2.525772E-05, 3.173895E-05, 7.186430E-06, -3.493835E-05, 1.682496E-05, 2.222063E-05, -3.364179E-05, 4.971396E-06, 0.000000E+00, 0.000000E+00],
  [2.870166E-05, 9.812331E-06, 2.532237E-05, 3.388709E-04, 8.425852E-04, 7.681852E-04, -2.830138E-04, -1.104212E-03, -2.596001E-04, 1.068091E-03, 4.736399E-04, -1.063782E-03, -5.726244E-04, 9.992096E-04, 5.595869E-04, -8.244434E-04, -4.308480E-04, 5.958889E-04, 2.794850E-04, -3.889580E-04, -1.880986E-04, 2.665716E-04, 1.414887E-04, -2.365583E-04, -7.414871E-05, 2.334210E-04, -2.659992E-05, -1.984618E-04, 1.360489E-04, 9.295885E-05, 0.000000E+00, -1.448714E-05, -2.070954E-05, 4.315501E-06, 5.878214E-05, 7.331052E-05, -5.083731E-05, -2.104573E-04, -1.116649E-04, 1.716353E-04, 1.571301E-04, -1.340960E-04, -1.386468E-04, 1.161277E-04, 1.020489E-04, -9.298269E-05, -6.252766E-05, 6.231774E-05, 3.565743E-05, -3.568991E-05, -2.650616E-05, 2.541663E-05, 2.218877E-05, -2.861682E-05, -9.525887E-06, 2.878531E-05, -5.681577E-06, -2.138931E-05, 1.693690E-05, 8.231841E-06, 0.000000E+00, 0.000000E+00],
  [-3.592047E-05, -3.287440E-05, -2.385462E-05, -1.396631E-05, 2.080462E-04, 5.730567E-04, 4.468888E-04, -2.628594E-04, -4.388444E-04, 3.450200E-04, 5.680717E-04, -4.339830E-04, -7.415268E-04, 3.882519E-04, 7.408659E-04, -3.217972E-04, -5.811551E-04, 2.851901E-04, 3.709792E-04, -2.497901E-04, -1.959146E-04, 2.007033E-04, 9.244994E-05, -1.672340E-04, -3.064578E-05, 1.631507E-04, -5.232498E-05, -1.269529E-04, 1.390666E-04, 1.505872E-05, 0.000000E+00, 7.909183E-06, -5.992618E-06, -3.533608E-05, -2.791019E-05, 2.670344E-05, 4.240642E-05, -4.225563E-05, -1.061440E-04, -1.842184E-06, 1.153667E-04, 1.158179E-05, -1.198428E-04, -7.202777E-06, 1.106886E-04, -5.594275E-06, -8.551336E-05, 2.005118E-05, 5.309347E-05, -2.615336E-05, -2.525772E-05, 2.218877E-05, 1.033720E-05, -1.755948E-05, -3.904751E-06, 1.834575E-05, -6.370457E-06, -1.445601E-05, 1.756715E-05, -2.761035E-07, 0.000000E+00, 0.000000E+00],
  [2.087228E-05, 2.101662E-05, 1.346722E-05, -1.378632E-04, -6.595004E-04, -1.101696E-03, -4.632674E-04, 8.702221E-04, 8.310803E-04, -7.791325E-04, -1.088452E-03, 6.628462E-04, 1.146311E-03, -5.557651E-04, -9.902089E-04, 4.926609E-04, 7.206904E-04, -4.363735E-04, -4.480164E-04, 3.587371E-04, 2.493626E-04, -2.806547E-04, -1.367711E-04, 2.437955E-04, 5.185611E-05, -2.381301E-04, 6.643737E-05, 1.832480E-04, -1.831771E-04, -3.378047E-05, 0.000000E+00, 2.549541E-06, 2.709833E-05, 4.473966E-05, -8.828163E-06, -9.400675E-05, -3.975467E-05, 1.662336E-04, 2.059739E-04, -6.942639E-05, -2.276193E-04, 1.951964E-05, 1.968357E-04, -1.684318E-05, -1.520283E-04, 2.962659E-05, 1.033437E-04, -3.787947E-05, -6.035938E-05, 3.552133E-05, 3.173895E-05, -2.861682E-05, -1.755948E-05, 2.640184E-05, 7.095864E-06, -2.767412E-05, 8.706585E-06, 2.047656E-05, -2.281726E-05, -1.356792E-06, 0.000000E+00, 0.000000E+00],
  [4.833715E-06, 2.678450E-06, -5.128193E-05, -5.275827E-05, 2.300181E-04, 6.787168E-04, 6.411751E-04, -1.609197E-04, -7.816393E-04, -2.256310E-04, 7.078326E-04, 5.019254E-04, -4.280976E-04, -4.989120E-04, 1.884431E-04, 3.491997E-04, -6.073036E-05, -2.025523E-04, 5.460270E-06, 1.107614E-04, 1.432367E-05, -6.354421E-05, -1.931910E-05, 4.003531E-05, 2.448710E-05, -3.762401E-05, -2.510064E-05, 5.455304E-05, -6.563452E-07, -5.893369E-05, 0.000000E+00, -8.044720E-06, -2.552182E-05, -2.836726E-05, 1.800595E-05, 8.987583E-05, 8.289648E-05, -4.976950E-05, -1.489062E-04, -4.589136E-05, 1.119369E-04, 7.622872E-05, -5.897704E-05, -6.018411E-05, 2.255993E-05, 3.398009E-05, -2.734371E-06, -1.697892E-05, -6.226055E-06, 1.102956E-05, 7.186430E-06, -9.525887E-06, -3.904751E-06, 7.095864E-06, 1.785230E-06, -5.071747E-06, -1.538622E-06, 5.833468E-06, -9.661073E-07, -5.546724E-06, 0.000000E+00, 0.000000E+00],
  [-2.468790E-05, -2.436532E-05, 6.400527E-05, 2.625811E-04, 4.817195E-04, 3.546029E-04, -3.671195E-04, -8.960626E-04, -9.872858E-05, 1.141295E-03, 6.163401E-04, -1.057368E-03, -9.029141E-04, 7.946879E-04, 8.537925E-04, -5.736848E-04, -6.374199E-04, 4.292740E-04, 4.103776E-04, -3.306162E-04, -2.414742E-04, 2.640648E-04, 1.326864E-04, -2.319571E-04, -4.719372E-05, 2.204704E-04, -5.683266E-05, -1.750985E-04, 1.662088E-04, 4.387171E-05, 0.000000E+00, 5.680257E-06, 2.082499E-06, -8.900854E-06, -4.051228E-06, -5.519316E-06, -7.420054E-05, -1.465761E-04, -5.376302E-05, 1.417700E-04, 1.317432E-04, -9.213455E-05, -1.439229E-04, 5.418064E-05, 1.206153E-04, -3.651896E-05, -8.744188E-05, 3.107693E-05, 5.769646E-05, -2.973249E-05, -3.493835E-05, 2.878531E-05, 1.834575E-05, -2.767412E-05, -5.071747E-06, 2.590223E-05, -8.615175E-06, -1.881914E-05, 2.086915E-05, 1.853264E-06, 0.000000E+00, 0.000000E+00],
  [2.904353E-05, 3.655554E-05, 1.091634E-05, -1.474954E-04, -6.575309E-04, -1.164709E-03, -6.161357E-04, 9.087544E-04, 1.269183E-03, -4.730131E-04, -1.585491E-03, -7.444352E-05, 1.357672E-03, 2.923548E-04, -9.353965E-04, -2.209290E-04, 5.741573E-04, 7.633361E-05, -3.237758E-04, 2.744869E-05, 1.639634E-04, -7.883894E-05, -6.186727E-05, 9.773652E-05, -1.701630E-05, -8.638381E-05, 8.834320E-05, 2.484847E-05, -1.202145E-04, 7.744961E-05, 0.000000E+00, 1.902962E-07, 2.422169E-05, 4.739720E-05, -5.549114E-06, -1.026771E-04, -5.281275E-05, 1.767855E-04, 2.514258E-04, -2.821739E-05, -2.557940E-04, -6.133248E-05, 1.851142E-04, 6.966091E-05, -1.155338E-04, -4.297942E-05, 6.626949E-05, 1.654921E-05, -3.506795E-05, -1.195631E-06, 1.682496E-05, -5.681577E-06, -6.370457E-06, 8.706585E-06, -1.538622E-06, -8.615175E-06, 9.540632E-06, 2.349144E-06, -1.359377E-05, 9.491275E-06, 0.000000E+00, 0.000000E+00],
  [-1.908107E-05, -2.879115E-05, -1.150195E-04, -2.451748E-04, 2.435787E-05, 9.047668E-04, 1.437929E-03, 3.974139E-04, -1.336765E-03, -1.231317E-03, 7.711690E-04, 1.504112E-03, -1.322013E-04, -1.211993E-03, -1.627669E-04, 7.921213E-04, 1.997774E-04, -4.716121E-04, -1.557445E-04, 2.779587E-04, 1.137988E-04, -1.800191E-04, -8.605683E-05, 1.451782E-04, 5.745657E-05, -1.454956E-04, -7.245514E-06, 1.458745E-04, -7.156956E-05, -9.903019E-05, 0.000000E+00, -2.998271E-06, -3.125041E-05, -6.017586E-05, -8.522909E-06, 1.338519E-04, 2.024102E-04, 2.937817E-05, -2.278227E-04, -1.986320E-04, 9.666378E-05, 2.033382E-04, -3.351955E-06, -1.387639E-04, -2.914555E-05, 7.761561E-05, 3.236389E-05, -4.111114E-05, -2.820381E-05, 2.555562E-05, 2.222063E-05, -2.138931E-05, -1.445601E-05, 2.047656E-05, 5.833468E-06, -1.881914E-05, 2.349144E-06, 1.536432E-05, -9.908165E-06, -8.450623E-06, 0.000000E+00, 0.000000E+00],
  [3.485918E-06, -4.250832E-06, 1.197190E-04, 5.054223E-04, 8.435843E-04, 4.039915E-04, -9.428731E-04, -1.686288E-03, -2.453423E-04, 1.824457E-03, 1.274552E-03, -1.180240E-03, -1.491918E-03, 5.498218E-04, 1.160518E-03, -2.562644E-04, -7.484752E-04, 1.743145E-04, 4.437652E-04, -1.658093E-04, -2.523225E-04, 1.778049E-04, 1.241610E-04, -1.909104E-04, -1.182736E-05, 1.781240E-04, -9.936471E-05, -1.052426E-04, 1.745722E-04, -3.196103E-05, 0.000000E+00, 2.279226E-07, 1.229592E-05, 3.262690E-05, 3.429032E-05, -3.471021E-05, -1.907996E-04, -2.681941E-04, -5.726888E-05, 2.494248E-04, 2.056548E-04, -1.194339E-04, -1.990517E-04, 3.400874E-05, 1.380673E-04, -3.980856E-06, -8.514871E-05, 1.087481E-06, 5.294125E-05, -7.842008E-06, -3.364179E-05, 1.693690E-05, 1.756715E-05, -2.281726E-05, -9.661073E-07, 2.086915E-05, -1.359377E-05, -9.908165E-06, 2.051740E-05, -6.495303E-06, 0.000000E+00, 0.000000E+00],
  [8.123578E-06, 4.737525E-05, 2.503849E-05, -2.816229E-04, -1.016902E-03, -1.617253E-03, -8.150144E-04, 1.309998E-03, 2.053898E-03, -1.747534E-04, -2.217090E-03, -8.239295E-04, 1.493041E-03, 9.770121E-04, -7.966557E-04, -6.864727E-04, 3.965429E-04, 3.698111E-04, -1.983078E-04, -1.559870E-04, 9.247480E-05, 3.530514E-05, -1.638235E-05, 1.527360E-05, -5.211278E-05, -2.594505E-07, 9.478255E-05, -6.812265E-05, -7.067445E-05, 1.362372E-04, 0.000000E+00, 4.680480E-06, 1.778648E-05, 2.233376E-05, -3.605065E-05, -1.254328E-04, -4.148026E-05, 2.537491E-04, 3.530281E-04, 1.324226E-06, -3.198670E-04, -1.369718E-04, 1.818043E-04, 1.316239E-04, -8.173513E-05, -8.338668E-05, 3.214907E-05, 4.448215E-05, -1.214076E-05, -2.161298E-05, 4.971396E-06, 8.231841E-06, -2.761035E-07, -1.356792E-06, -5.546724E-06, 1.853264E-06, 9.491275E-06, -8.450623E-06, -6.495303E-06, 1.489094E-05, 0.000000E+00, 0.000000E+00],
  [0.000000E+00, 0.000000E+00, 0.000000E+00, 0.000000E+00, 0.000000E+00, 0.000000E+00, 0.000000E+00, 0.000000E+00, 0.000000E+00, 0.000000E+00, 0.000000E+00, 0.000000E+00, 0.000000E+00, 0.000000E+00, 0.000000E+00, 0.000000E+00, 0.000000E+00, 0.000000E+00, 0.000000E+00, 0.000000E+00, 0.000000E+00, 0.000000E+00, 0.000000E+00, 0.000000E+00, 0.000000E+00, 0.000000E+00, 0.000000E+00, 0.000000E+00, 0.000000E+00, 0.000000E+00, 0.000000E+00, 0.000000E+00, 0.000000E+00, 0.000000E+00, 0.000000E+00, 0.000000E+00, 0.000000E+00, 0.000000E+00, 0.000000E+00, 0.000000E+00, 0.000000E+00, 0.000000E+00, 0.000000E+00, 0.000000E+00, 0.000000E+00, 0.000000E+00, 0.000000E+00, 0.000000E+00, 0.000000E+00, 0.000000E+00, 0.000000E+00, 0.000000E+00, 0.000000E+00, 0.000000E+00, 0.000000E+00, 0.000000E+00, 0.000000E+00, 0.000000E+00, 0.000000E+00, 0.000000E+00, 0.000000E+00, 0.000000E+00],
  [0.000000E+00, 0.000000E+00, 0.000000E+00, 0.000000E+00, 0.000000E+00, 0.000000E+00, 0.000000E+00, 0.000000E+00, 0.000000E+00, 0.000000E+00, 0.000000E+00, 0.000000E+00, 0.000000E+00, 0.000000E+00, 0.000000E+00, 0.000000E+00, 0.000000E+00, 0.000000E+00, 0.000000E+00, 0.000000E+00, 0.000000E+00, 0.000000E+00, 0.000000E+00, 0.000000E+00, 0.000000E+00, 0.000000E+00, 0.000000E+00, 0.000000E+00, 0.000000E+00, 0.000000E+00, 0.000000E+00, 0.000000E+00, 0.000000E+00, 0.000000E+00, 0.000000E+00, 0.000000E+00, 0.000000E+00, 0.000000E+00, 0.000000E+00, 0.000000E+00, 0.000000E+00, 0.000000E+00, 0.000000E+00, 0.000000E+00, 0.000000E+00, 0.000000E+00, 0.000000E+00, 0.000000E+00, 0.000000E+00, 0.000000E+00, 0.000000E+00, 0.000000E+00, 0.000000E+00, 0.000000E+00, 0.000000E+00, 0.000000E+00, 0.000000E+00, 0.000000E+00, 0.000000E+00, 0.000000E+00, 0.000000E+00, 0.000000E+00]]

/-- `Daejeon16_public_v2.f90` 563-626. -/
def coup3pf : List (List Num) := coup3pf_1 ++ coup3pf_2 ++ coup3pf_3 ++ coup3pf_4

end Verif.Daejeon
