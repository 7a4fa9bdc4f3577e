import Verif.Daejeon.Number

/-!
# Tables of Daejeon16: coup3sd

The `data` statements of `contrib/Daejeon16/Daejeon16_public_v2.f90`, line by line; a line of the source is a row here.
-/

namespace Verif.Daejeon

/-- `Daejeon16_public_v2.f90` 500-515. -/
def coup3sd_1 : List (List Num) := [
  [-1.579987E+01, -5.931245E+00, 1.373983E+00, 1.560674E+00, 5.127458E-01, -2.249218E-01, -8.692363E-02, 5.292551E-02, 6.976211E-03, -1.272592E-02, 2.791465E-03, 1.604779E-03, -1.413556E-03, 4.567234E-04, 7.069967E-05, -2.334342E-04, 1.999615E-04, -7.474422E-05, -5.116034E-05, 1.094915E-04, -8.310079E-05, 6.986302E-06, 6.033741E-05, -7.679072E-05, 4.199461E-05, 9.370957E-06, -3.892853E-05, 3.390477E-05, -1.148016E-05, -1.689436E-06, -5.714695E-06, -8.508007E+00, -5.718761E+00, -1.492383E+00, 3.431518E-01, 2.704855E-01, -3.739493E-02, -4.253515E-02, 1.169294E-02, 4.929015E-03, -3.829849E-03, 6.232983E-04, 6.750571E-04, -6.687286E-04, 2.304115E-04, 1.297660E-04, -2.598176E-04, 2.058141E-04, -5.127892E-05, -1.177850E-04, 2.105207E-04, -1.747468E-04, 4.090001E-05, 9.933862E-05, -1.647370E-04, 1.383148E-04, -6.191987E-05, -1.015248E-05, 5.135122E-05, -6.789892E-05, 7.632850E-05, 0.000000E+00],
  [-5.931245E+00, -9.559639E+00, -3.224257E+00, 7.864327E-01, 1.321873E+00, 2.152492E-01, -2.594066E-01, -5.125773E-02, 6.458554E-02, 3.132966E-03, -1.673009E-02, 3.182233E-03, 3.412144E-03, -1.811443E-03, -2.819243E-04, 5.187071E-04, -1.211189E-04, 5.533596E-07, -6.960681E-05, 4.395286E-05, 1.027525E-04, -2.227657E-04, 1.978511E-04, -3.173935E-05, -1.702458E-04, 2.785279E-04, -2.247325E-04, 4.706726E-05, 1.368293E-04, -2.140064E-04, 1.555513E-04, -1.755504E+00, -4.751165E+00, -3.537247E+00, -7.679613E-01, 5.304405E-01, 3.046767E-01, -7.791910E-02, -7.529872E-02, 1.948252E-02, 1.650617E-02, -6.715917E-03, -2.901212E-03, 2.113030E-03, 3.673606E-04, -6.156368E-04, -7.809818E-05, 3.365315E-04, -9.505570E-05, -1.982431E-04, 2.548179E-04, -8.117188E-05, -1.366358E-04, 2.136421E-04, -1.084010E-04, -6.277648E-05, 1.438507E-04, -7.986090E-05, -4.527493E-05, 9.915915E-05, -2.817297E-05, 0.000000E+00],
  [1.373983E+00, -3.224257E+00, -3.407443E+00, -7.246464E-01, 1.355553E+00, 1.042535E+00, -4.314731E-02, -2.660184E-01, 2.154022E-02, 7.402057E-02, -2.193984E-02, -1.867984E-02, 1.287619E-02, 2.243391E-03, -5.173636E-03, 1.098619E-03, 1.314642E-03, -7.868901E-04, -2.336787E-04, 3.719236E-04, 4.494125E-05, -3.368019E-04, 2.730753E-04, 4.910798E-06, -2.771709E-04, 3.811893E-04, -2.486677E-04, -5.694562E-05, 3.446684E-04, -4.071485E-04, 1.829371E-04, 1.520597E-01, -1.634720E+00, -3.431098E+00, -2.170465E+00, 1.867069E-01, 9.142842E-01, 2.225059E-01, -2.452668E-01, -8.631548E-02, 7.668886E-02, 2.035796E-02, -2.734170E-02, -9.827383E-04, 9.267217E-03, -2.439091E-03, -2.387164E-03, 1.769949E-03, 2.095372E-04, -8.859562E-04, 3.848453E-04, 3.231593E-04, -6.251959E-04, 3.840099E-04, 1.939666E-04, -6.790185E-04, 6.682879E-04, -1.115979E-04, -5.846838E-04, 8.471619E-04, -4.177614E-04, 0.000000E+00],
  [1.560674E+00, 7.864327E-01, -7.246464E-01, -1.023644E+00, 3.931182E-01, 1.247292E+00, 5.976960E-01, -1.673966E-01, -1.406137E-01, 7.440361E-02, 2.145523E-02, -3.988419E-02, 6.231216E-03, 1.566401E-02, -8.894396E-03, -3.192779E-03, 5.128527E-03, -9.479295E-04, -1.655671E-03, 1.179139E-03, 4.782305E-05, -4.577569E-04, 2.362357E-04, -4.043373E-06, -8.408832E-05, 1.513053E-04, -1.757129E-04, 1.322083E-05, 3.001490E-04, -4.713880E-04, 2.392903E-04, 4.017425E-01, 3.555324E-01, -7.362428E-01, -1.414510E+00, -8.862179E-02, 1.280471E+00, 8.633682E-01, -2.120465E-01, -3.600498E-01, 5.612176E-02, 1.259233E-01, -3.565262E-02, -3.826194E-02, 2.261551E-02, 7.119427E-03, -1.093896E-02, 1.640881E-03, 3.543330E-03, -2.446673E-03, -7.129421E-05, 1.154124E-03, -9.990293E-04, 4.391150E-04, 2.642370E-04, -9.778902E-04, 1.209529E-03, -4.833595E-04, -9.326584E-04, 1.944581E-03, -1.489974E-03, 0.000000E+00],
  [5.127458E-01, 1.321873E+00, 1.355553E+00, 3.931182E-01, 2.555463E-02, 6.558523E-01, 9.248760E-01, 3.690663E-01, -8.926334E-02, -5.727969E-02, 1.625318E-02, -1.977575E-02, -3.396310E-03, 2.115623E-02, -5.377628E-03, -1.016899E-02, 6.890174E-03, 1.936830E-03, -4.000762E-03, 1.015322E-03, 1.107060E-03, -7.681433E-04, -1.289727E-04, 1.504911E-04, 2.797705E-04, -2.258556E-04, -3.215662E-04, 5.720169E-04, -7.178992E-05, -6.769340E-04, 7.881328E-04, 8.438718E-02, 6.367158E-01, 1.164538E+00, 1.149533E+00, 1.206107E+00, 1.741742E+00, 1.449181E+00, 1.370429E-01, -5.735816E-01, -1.574333E-01, 2.186817E-01, 4.544704E-02, -9.145501E-02, 3.681598E-03, 3.455639E-02, -1.355596E-02, -8.316819E-03, 9.038515E-03, -9.265610E-04, -3.053968E-03, 1.778607E-03, 2.282835E-04, -3.930779E-04, -3.670061E-04, 2.403422E-04, 9.588925E-04, -1.683602E-03, 5.517598E-04, 1.877325E-03, -3.309044E-03, 0.000000E+00],
  [-2.249218E-01, 2.152492E-01, 1.042535E+00, 1.247292E+00, 6.558523E-01, 3.678015E-01, 7.312726E-01, 8.199190E-01, 3.226090E-01, -9.185025E-02, -1.127458E-01, -1.952429E-02, 2.015571E-02, 2.156263E-02, -4.246757E-03, -1.394976E-02, 4.797074E-03, 6.302041E-03, -4.782797E-03, -1.228165E-03, 2.866193E-03, -5.725797E-04, -1.220730E-03, 6.245287E-04, 7.833170E-04, -8.660109E-04, -4.832268E-04, 1.494834E-03, -7.614489E-04, -1.069657E-03, 1.984759E-03, 1.238210E-03, 3.641977E-01, 1.399587E+00, 2.636606E+00, 3.197183E+00, 2.909337E+00, 2.026866E+00, 6.025497E-01, -5.102376E-01, -4.411353E-01, 1.370134E-01, 1.825827E-01, -7.241866E-02, -5.991416E-02, 4.530653E-02, 9.385832E-03, -2.246669E-02, 5.920087E-03, 6.943640E-03, -6.313310E-03, 8.027388E-05, 3.372254E-03, -2.083955E-03, -1.172756E-03, 2.728788E-03, -1.030785E-03, -2.242897E-03, 3.649616E-03, -1.211702E-03, -3.331978E-03, 0.000000E+00],
  [-8.692363E-02, -2.594066E-01, -4.314731E-02, 5.976960E-01, 9.248760E-01, 7.312726E-01, 6.720983E-01, 8.785012E-01, 7.080063E-01, 1.321332E-01, -2.018696E-01, -1.128895E-01, 3.587948E-02, 4.491911E-02, -3.958120E-03, -1.893234E-02, 1.041752E-03, 9.435772E-03, -2.745958E-03, -4.079269E-03, 3.318237E-03, 6.248331E-04, -2.435727E-03, 1.072014E-03, 1.264057E-03, -1.876341E-03, 7.678213E-05, 2.108159E-03, -2.012112E-03, -6.273383E-04, 3.082145E-03, 3.160958E-02, 1.428494E-01, 7.332825E-01, 2.052031E+00, 3.447191E+00, 3.785056E+00, 2.782244E+00, 1.166657E+00, -1.891776E-01, -5.726385E-01, -1.132778E-01, 2.211095E-01, 4.875417E-02, -9.677637E-02, 4.822809E-04, 3.995106E-02, -1.508049E-02, -1.015319E-02, 1.156728E-02, -2.387554E-03, -3.510218E-03, 4.042538E-03, -2.087623E-03, -6.326439E-04, 3.103348E-03, -3.435122E-03, 3.904431E-04, 4.079873E-03, -5.563758E-03, 1.510810E-03, 0.000000E+00],
  [5.292551E-02, -5.125773E-02, -2.660184E-01, -1.673966E-01, 3.690663E-01, 8.199190E-01, 8.785012E-01, 8.336684E-01, 7.562225E-01, 3.834981E-01, -8.414688E-02, -1.983195E-01, -2.760016E-02, 6.669338E-02, 1.873949E-02, -2.295408E-02, -7.825685E-03, 9.865033E-03, 1.999765E-03, -4.994439E-03, 1.073430E-03, 1.710815E-03, -1.894917E-03, 9.051163E-04, 7.259800E-04, -2.094692E-03, 1.474759E-03, 1.177803E-03, -3.084725E-03, 1.591227E-03, 2.233397E-03, 7.227402E-03, 1.843682E-03, 7.115815E-02, 5.789135E-01, 1.725295E+00, 2.865633E+00, 2.944950E+00, 1.800114E+00, 3.535522E-01, -4.528559E-01, -3.529803E-01, 8.360314E-02, 1.595943E-01, -3.687234E-02, -6.218592E-02, 2.973814E-02, 1.676854E-02, -1.872315E-02, 9.169739E-04, 7.168165E-03, -3.329859E-03, -1.381368E-03, 9.724554E-04, 1.585451E-03, -1.168597E-03, -2.479233E-03, 4.575209E-03, -1.269150E-03, -5.121447E-03, 7.732730E-03, 0.000000E+00],
  [6.976211E-03, 6.458554E-02, 2.154022E-02, -1.406137E-01, -8.926334E-02, 3.226090E-01, 7.080063E-01, 7.562225E-01, 6.217545E-01, 4.253813E-01, 1.123144E-01, -1.372228E-01, -1.131849E-01, 2.691799E-02, 5.001480E-02, -6.220427E-03, -1.966628E-02, 2.902861E-03, 7.847928E-03, -2.106773E-03, -2.986075E-03, 1.225979E-03, 1.076625E-03, -9.672682E-05, -1.234902E-03, -8.561295E-05, 2.241935E-03, -1.586679E-03, -1.795647E-03, 3.750302E-03, -1.304156E-03, -1.527424E-02, -5.335422E-02, -1.727989E-01, -2.994595E-01, -5.597364E-02, 8.118593E-01, 1.764697E+00, 1.851977E+00, 9.469631E-01, -6.351771E-02, -4.056091E-01, -1.333340E-01, 1.368654E-01, 6.965408E-02, -6.089081E-02, -2.022040E-02, 3.136570E-02, -2.238087E-03, -1.309984E-02, 7.857647E-03, 2.069551E-03, -6.042413E-03, 3.137319E-03, 2.423032E-03, -5.162171E-03, 2.093596E-03, 4.148535E-03, -6.853710E-03, 1.971180E-03, 6.573443E-03, 0.000000E+00],
  [-1.272592E-02, 3.132966E-03, 7.402057E-02, 7.440361E-02, -5.727969E-02, -9.185025E-02, 1.321332E-01, 3.834981E-01, 4.253813E-01, 3.320694E-01, 1.924967E-01, 4.341244E-03, -1.053502E-01, -4.606715E-02, 3.847558E-02, 2.509090E-02, -1.573626E-02, -1.028310E-02, 7.981081E-03, 3.618694E-03, -4.959004E-03, -6.139489E-04, 3.537959E-03, -1.169807E-03, -2.434275E-03, 2.592338E-03, 8.122022E-04, -3.439009E-03, 1.758628E-03, 2.507323E-03, -4.246625E-03, -2.024231E-03, -1.608206E-02, -7.593918E-02, -2.600593E-01, -5.115216E-01, -4.667191E-01, 1.508293E-01, 9.146100E-01, 1.031826E+00, 4.207216E-01, -1.822480E-01, -2.563934E-01, -6.876223E-03, 1.066817E-01, 9.228694E-03, -4.588912E-02, 4.150873E-03, 1.781308E-02, -7.961031E-03, -3.339544E-03, 4.197557E-03, -1.448499E-03, 8.297657E-04, -5.533038E-04, -1.992035E-03, 4.350160E-03, -2.072599E-03, -4.117024E-03, 7.433122E-03, -2.709515E-03, 0.000000E+00],
  [2.791465E-03, -1.673009E-02, -2.193984E-02, 2.145523E-02, 1.625318E-02, -1.127458E-01, -2.018696E-01, -8.414688E-02, 1.123144E-01, 1.924967E-01, 1.627696E-01, 8.225688E-02, -2.274854E-02, -6.358343E-02, -1.052299E-02, 2.987852E-02, 6.758942E-03, -1.350250E-02, -1.325978E-03, 5.915874E-03, -1.277212E-03, -1.785493E-03, 1.814062E-03, -9.192826E-04, -6.936907E-04, 2.249728E-03, -1.553707E-03, -1.441770E-03, 3.338217E-03, -1.374666E-03, -2.607708E-03, 5.667017E-03, 1.902341E-02, 4.453265E-02, 4.240957E-02, -1.001068E-01, -3.868009E-01, -5.075752E-01, -1.550363E-01, 4.020926E-01, 5.421684E-01, 1.760060E-01, -1.600018E-01, -1.364794E-01, 3.460902E-02, 6.365925E-02, -1.374634E-02, -2.657232E-02, 1.119817E-02, 8.722222E-03, -8.467568E-03, -7.381145E-04, 5.259898E-03, -2.247727E-03, -3.128590E-03, 4.164240E-03, 6.702834E-04, -5.674921E-03, 4.108534E-03, 3.360720E-03, -8.415765E-03, 0.000000E+00],
  [1.604779E-03, 3.182233E-03, -1.867984E-02, -3.988419E-02, -1.977575E-02, -1.952429E-02, -1.128895E-01, -1.983195E-01, -1.372228E-01, 4.341244E-03, 8.225688E-02, 7.984533E-02, 3.578060E-02, -2.117761E-02, -3.433055E-02, 1.681372E-03, 1.849772E-02, -1.214134E-04, -8.777713E-03, 7.178848E-04, 4.043198E-03, -6.628370E-04, -2.207227E-03, 4.761372E-04, 1.865988E-03, -8.907961E-04, -1.784257E-03, 2.047606E-03, 7.433487E-04, -2.952589E-03, 1.559371E-03, -4.039658E-04, 5.189507E-03, 2.846797E-02, 8.573915E-02, 1.402101E-01, 6.055128E-02, -2.038838E-01, -4.009884E-01, -2.248860E-01, 1.666899E-01, 2.944362E-01, 7.300688E-02, -1.141339E-01, -6.498717E-02, 3.915931E-02, 3.110312E-02, -1.791504E-02, -1.072362E-02, 9.864377E-03, 7.144446E-04, -3.668341E-03, 2.256043E-03, -1.342441E-03, -3.498832E-04, 3.292515E-03, -3.645734E-03, -8.712834E-04, 5.859816E-03, -4.698820E-03, -2.631710E-03, 0.000000E+00],
  [-1.413556E-03, 3.412144E-03, 1.287619E-02, 6.231216E-03, -3.396310E-03, 2.015571E-02, 3.587948E-02, -2.760016E-02, -1.131849E-01, -1.053502E-01, -2.274854E-02, 3.578060E-02, 4.204400E-02, 1.642144E-02, -1.585366E-02, -1.777992E-02, 5.581984E-03, 1.026583E-02, -3.582656E-03, -4.637306E-03, 3.134243E-03, 1.235704E-03, -2.564382E-03, 8.900333E-04, 1.486355E-03, -2.121423E-03, 2.104629E-04, 2.129826E-03, -1.988337E-03, -6.342244E-04, 2.619208E-03, -1.794867E-03, -7.918797E-03, -1.857324E-02, -1.885591E-02, 2.718978E-02, 1.118762E-01, 1.141356E-01, -5.995097E-02, -2.460026E-01, -1.794031E-01, 7.018413E-02, 1.630837E-01, 2.877730E-02, -7.344969E-02, -2.774829E-02, 3.033947E-02, 1.323480E-02, -1.439188E-02, -4.165634E-03, 7.655147E-03, 1.888861E-04, -4.395214E-03, 1.209193E-03, 3.222891E-03, -2.610402E-03, -2.256378E-03, 4.752669E-03, -8.919481E-04, -5.114318E-03, 5.675113E-03, 0.000000E+00],
  [4.567234E-04, -1.811443E-03, 2.243391E-03, 1.566401E-02, 2.115623E-02, 2.156263E-02, 4.491911E-02, 6.669338E-02, 2.691799E-02, -4.606715E-02, -6.358343E-02, -2.117761E-02, 1.642144E-02, 2.226133E-02, 7.383619E-03, -9.922658E-03, -8.546073E-03, 4.403207E-03, 4.923633E-03, -2.335784E-03, -2.122040E-03, 1.044127E-03, 9.228568E-04, -1.532784E-04, -9.122504E-04, -3.021480E-05, 1.316639E-03, -6.248862E-04, -1.228040E-03, 1.595559E-03, 1.480593E-04, 6.663569E-04, -1.989228E-04, -7.702556E-03, -2.804306E-02, -4.899234E-02, -2.365634E-02, 6.653588E-02, 1.216693E-01, 2.574978E-02, -1.281608E-01, -1.226103E-01, 2.900962E-02, 9.234592E-02, 1.028765E-02, -4.516212E-02, -9.506620E-03, 2.033877E-02, 3.008741E-03, -9.120458E-03, 1.129226E-03, 2.991955E-03, -2.336496E-03, 1.082987E-03, 9.329842E-04, -3.113218E-03, 2.148233E-03, 2.191369E-03, -4.828041E-03, 1.710907E-03, 4.174624E-03, 0.000000E+00],
  [7.069967E-05, -2.819243E-04, -5.173636E-03, -8.894396E-03, -5.377628E-03, -4.246757E-03, -3.958120E-03, 1.873949E-02, 5.001480E-02, 3.847558E-02, -1.052299E-02, -3.433055E-02, -1.585366E-02, 7.383619E-03, 1.266578E-02, 3.608300E-03, -6.681853E-03, -4.221519E-03, 3.996428E-03, 2.337765E-03, -2.872748E-03, -5.997933E-04, 2.122642E-03, -6.083862E-04, -1.345100E-03, 1.368897E-03, 3.503804E-04, -1.560356E-03, 7.491333E-04, 9.887414E-04, -1.445676E-03, 3.685307E-04, 3.095714E-03, 9.348716E-03, 1.399694E-02, 2.238987E-03, -2.790827E-02, -3.350354E-02, 2.656318E-02, 9.055613E-02, 4.863073E-02, -6.093618E-02, -7.770049E-02, 1.176307E-02, 5.293770E-02, 3.221573E-03, -2.698470E-02, -2.754632E-03, 1.273763E-02, 6.624626E-04, -6.196733E-03, 3.061769E-04, 3.534093E-03, -6.778215E-04, -2.827657E-03, 1.555814E-03, 2.450322E-03, -3.307562E-03, -5.820033E-04, 4.356121E-03, -3.000238E-03, 0.000000E+00],
  [-2.334342E-04, 5.187071E-04, 1.098619E-03, -3.192779E-03, -1.016899E-02, -1.394976E-02, -1.893234E-02, -2.295408E-02, -6.220427E-03, 2.509090E-02, 2.987852E-02, 1.681372E-03, -1.777992E-02, -9.922658E-03, 3.608300E-03, 6.667830E-03, 1.493234E-03, -3.518908E-03, -1.736743E-03, 1.880067E-03, 8.565636E-04, -8.347169E-04, -3.115922E-04, 9.311903E-05, 3.509532E-04, 2.003966E-04, -6.788273E-04, 3.268881E-05, 8.363820E-04, -5.754232E-04, -5.145902E-04, -3.635027E-04, -9.802065E-04, 7.404196E-05, 6.740048E-03, 1.764519E-02, 1.573090E-02, -1.315454E-02, -3.744005E-02, -5.920166E-03, 5.246355E-02, 4.450079E-02, -2.616588E-02, -4.727343E-02, 4.889222E-03, 3.042706E-02, -2.987859E-04, -1.561831E-02, 1.133550E-03, 6.919776E-03, -2.058859E-03, -2.137152E-03, 2.101336E-03, -7.720118E-04, -1.033160E-03, 2.365442E-03, -1.083669E-03, -2.112431E-03, 3.235058E-03, -3.226885E-04, -3.424056E-03, 0.000000E+00]]

/-- `Daejeon16_public_v2.f90` 516-531. -/
def coup3sd_2 : List (List Num) := [
  [1.999615E-04, -1.211189E-04, 1.314642E-03, 5.128527E-03, 6.890174E-03, 4.797074E-03, 1.041752E-03, -7.825685E-03, -1.966628E-02, -1.573626E-02, 6.758942E-03, 1.849772E-02, 5.581984E-03, -8.546073E-03, -6.681853E-03, 1.493234E-03, 4.254086E-03, 8.371565E-04, -2.683831E-03, -8.437082E-04, 1.939179E-03, 2.173295E-04, -1.440702E-03, 3.759805E-04, 9.578755E-04, -7.795920E-04, -4.143607E-04, 9.321512E-04, -1.723012E-04, -7.564742E-04, 6.426910E-04, 4.053373E-05, -8.638511E-04, -3.980173E-03, -8.419847E-03, -7.917653E-03, 2.880314E-03, 1.150052E-02, -3.986867E-03, -2.953644E-02, -1.815897E-02, 2.559785E-02, 3.303224E-02, -9.391555E-03, -2.841565E-02, 1.208514E-03, 1.782406E-02, -2.697165E-04, -9.432022E-03, 6.023927E-04, 4.728643E-03, -5.558115E-04, -2.762988E-03, 5.268548E-04, 2.261780E-03, -1.099225E-03, -1.960815E-03, 2.296447E-03, 6.835845E-04, -3.046021E-03, 1.701761E-03, 0.000000E+00],
  [-7.474422E-05, 5.533596E-07, -7.868901E-04, -9.479295E-04, 1.936830E-03, 6.302041E-03, 9.435772E-03, 9.865033E-03, 2.902861E-03, -1.028310E-02, -1.350250E-02, -1.214134E-04, 1.026583E-02, 4.403207E-03, -4.221519E-03, -3.518908E-03, 8.371565E-04, 1.914126E-03, 2.536704E-04, -1.008582E-03, -2.793898E-04, 4.775500E-04, 1.120813E-04, -8.006374E-05, -1.201446E-04, -1.345865E-04, 2.860784E-04, 1.018122E-04, -4.360371E-04, 1.292021E-04, 4.153687E-04, 8.458560E-05, 8.095884E-04, 1.841870E-03, 9.054762E-04, -3.948527E-03, -7.831361E-03, -1.154143E-03, 1.078227E-02, 5.267343E-03, -1.688953E-02, -1.809850E-02, 1.041900E-02, 2.154352E-02, -2.992337E-03, -1.649087E-02, 8.895186E-04, 9.956164E-03, -1.504360E-03, -4.746681E-03, 1.910768E-03, 1.413429E-03, -1.637993E-03, 5.630967E-04, 7.875276E-04, -1.593328E-03, 6.081962E-04, 1.459261E-03, -2.008661E-03, 5.877095E-05, 2.164754E-03, 0.000000E+00],
  [-5.116034E-05, -6.960681E-05, -2.336787E-04, -1.655671E-03, -4.000762E-03, -4.782797E-03, -2.745958E-03, 1.999765E-03, 7.847928E-03, 7.981081E-03, -1.325978E-03, -8.777713E-03, -3.582656E-03, 4.923633E-03, 3.996428E-03, -1.736743E-03, -2.683831E-03, 2.536704E-04, 1.637711E-03, 1.627160E-04, -1.161427E-03, -4.568759E-05, 8.954457E-04, -2.199054E-04, -6.336881E-04, 4.393315E-04, 3.395058E-04, -5.523317E-04, -1.506321E-05, 5.212444E-04, -3.061129E-04, -4.355435E-05, -4.855626E-05, 7.655021E-04, 3.188051E-03, 5.464838E-03, 3.304670E-03, -2.351771E-03, -1.475717E-03, 8.109762E-03, 8.808192E-03, -7.106764E-03, -1.439278E-02, 2.103197E-03, 1.375067E-02, 7.075576E-04, -1.012568E-02, -6.642934E-04, 6.471737E-03, -1.574280E-04, -3.722555E-03, 4.569112E-04, 2.279404E-03, -5.560243E-04, -1.761991E-03, 1.000984E-03, 1.326229E-03, -1.728586E-03, -2.681495E-04, 1.953379E-03, -1.246805E-03, 0.000000E+00],
  [1.094915E-04, 4.395286E-05, 3.719236E-04, 1.179139E-03, 1.015322E-03, -1.228165E-03, -4.079269E-03, -4.994439E-03, -2.106773E-03, 3.618694E-03, 5.915874E-03, 7.178848E-04, -4.637306E-03, -2.335784E-03, 2.337765E-03, 1.880067E-03, -8.437082E-04, -1.008582E-03, 1.627160E-04, 4.522735E-04, 6.360748E-05, -2.071181E-04, -6.560500E-05, 5.472642E-05, 5.300522E-05, 5.720405E-05, -1.118668E-04, -8.251414E-05, 2.070601E-04, -7.566695E-06, -2.512132E-04, 2.146217E-06, -3.454198E-04, -1.328683E-03, -2.247614E-03, -1.191240E-03, 1.906903E-03, 2.541615E-03, -1.729241E-03, -3.190750E-03, 3.822116E-03, 7.340166E-03, -2.204381E-03, -8.908839E-03, 1.243563E-04, 7.534016E-03, 2.847976E-04, -5.173279E-03, 4.173322E-04, 2.870052E-03, -1.059336E-03, -9.271924E-04, 1.006276E-03, -3.442292E-04, -4.253261E-04, 9.160213E-04, -4.211372E-04, -7.413342E-04, 1.136990E-03, -1.507881E-04, -1.076741E-03, 0.000000E+00],
  [-8.310079E-05, 1.027525E-04, 4.494125E-05, 4.782305E-05, 1.107060E-03, 2.866193E-03, 3.318237E-03, 1.073430E-03, -2.986075E-03, -4.959004E-03, -1.277212E-03, 4.043198E-03, 3.134243E-03, -2.122040E-03, -2.872748E-03, 8.565636E-04, 1.939179E-03, -2.793898E-04, -1.161427E-03, 6.360748E-05, 7.376184E-04, -3.144650E-05, -5.589976E-04, 1.320203E-04, 4.284297E-04, -2.693200E-04, -2.623266E-04, 3.706226E-04, 4.407349E-05, -3.791867E-04, 2.087717E-04, -1.201408E-05, 2.645373E-04, 6.060242E-04, 1.041130E-04, -1.655646E-03, -2.845644E-03, -1.210803E-03, 8.382630E-04, -1.369169E-03, -4.146528E-03, 4.183443E-04, 6.318515E-03, 1.462229E-03, -6.359552E-03, -2.215204E-03, 5.326690E-03, 1.700787E-03, -4.112937E-03, -6.956283E-04, 2.971984E-03, -1.343847E-04, -2.019866E-03, 5.981984E-04, 1.398725E-03, -1.011809E-03, -7.882526E-04, 1.368926E-03, -1.324159E-04, -1.185911E-03, 1.037265E-03, 0.000000E+00],
  [6.986302E-06, -2.227657E-04, -3.368019E-04, -4.577569E-04, -7.681433E-04, -5.725797E-04, 6.248331E-04, 1.710815E-03, 1.225979E-03, -6.139489E-04, -1.785493E-03, -6.628370E-04, 1.235704E-03, 1.044127E-03, -5.997933E-04, -8.347169E-04, 2.173295E-04, 4.775500E-04, -4.568759E-05, -2.071181E-04, -3.144650E-05, 7.106108E-05, 6.327283E-05, -2.750552E-05, -5.566325E-05, -1.139923E-06, 5.928936E-05, 1.429083E-05, -8.882144E-05, 2.182912E-05, 9.682646E-05, 3.521183E-05, -2.455490E-05, 1.778883E-04, 9.353692E-04, 1.489865E-03, 6.852552E-04, -7.066577E-04, -4.953708E-04, 7.258958E-04, -7.612621E-05, -1.784067E-03, -2.446547E-04, 2.359435E-03, 6.992142E-04, -2.187184E-03, -7.121625E-04, 1.665762E-03, 3.583519E-04, -1.079384E-03, 5.061320E-05, 4.758200E-04, -2.316397E-04, 6.290436E-05, 4.812359E-05, -2.849424E-04, 2.746155E-04, 1.399556E-04, -4.470738E-04, 2.136910E-04, 2.795918E-04, 0.000000E+00],
  [6.033741E-05, 1.978511E-04, 2.730753E-04, 2.362357E-04, -1.289727E-04, -1.220730E-03, -2.435727E-03, -1.894917E-03, 1.076625E-03, 3.537959E-03, 1.814062E-03, -2.207227E-03, -2.564382E-03, 9.228568E-04, 2.122642E-03, -3.115922E-04, -1.440702E-03, 1.120813E-04, 8.954457E-04, -6.560500E-05, -5.589976E-04, 6.327283E-05, 3.905396E-04, -9.900556E-05, -3.080518E-04, 1.890168E-04, 2.039712E-04, -2.805737E-04, -3.154187E-05, 2.884071E-04, -1.728761E-04, -3.200796E-05, -1.305845E-04, -5.390331E-04, -9.959957E-04, -4.828337E-04, 1.021377E-03, 1.468240E-03, 2.331181E-04, 3.150596E-04, 2.110949E-03, 7.159438E-04, -3.272704E-03, -1.898916E-03, 3.363592E-03, 2.186075E-03, -3.052312E-03, -1.701703E-03, 2.648570E-03, 8.966192E-04, -2.204231E-03, -1.045226E-04, 1.698840E-03, -5.198339E-04, -1.119271E-03, 9.176524E-04, 4.710844E-04, -1.059977E-03, 2.717091E-04, 7.382966E-04, -8.072547E-04, 0.000000E+00],
  [-7.679072E-05, -3.173935E-05, 4.910798E-06, -4.043373E-06, 1.504911E-04, 6.245287E-04, 1.072014E-03, 9.051163E-04, -9.672682E-05, -1.169807E-03, -9.192826E-04, 4.761372E-04, 8.900333E-04, -1.532784E-04, -6.083862E-04, 9.311903E-05, 3.759805E-04, -8.006374E-05, -2.199054E-04, 5.472642E-05, 1.320203E-04, -2.750552E-05, -9.900556E-05, 2.348353E-05, 8.848713E-05, -4.867062E-05, -6.168035E-05, 7.318208E-05, 1.698177E-05, -7.795030E-05, 3.731063E-05, -1.752520E-06, 1.294838E-04, 4.619718E-04, 6.465336E-04, 1.061795E-04, -8.417951E-04, -7.792936E-04, 4.623847E-04, 6.376180E-04, -9.415540E-04, -1.185005E-03, 8.319550E-04, 1.240428E-03, -7.548391E-04, -9.785200E-04, 7.843075E-04, 6.353694E-04, -7.893941E-04, -2.934754E-04, 7.052385E-04, 3.111294E-06, -5.356060E-04, 1.875970E-04, 3.366962E-04, -2.840303E-04, -1.463211E-04, 3.282909E-04, -8.783656E-05, -2.240619E-04, 2.612988E-04, 0.000000E+00],
  [4.199461E-05, -1.702458E-04, -2.771709E-04, -8.408832E-05, 2.797705E-04, 7.833170E-04, 1.264057E-03, 7.259800E-04, -1.234902E-03, -2.434275E-03, -6.936907E-04, 1.865988E-03, 1.486355E-03, -9.122504E-04, -1.345100E-03, 3.509532E-04, 9.578755E-04, -1.201446E-04, -6.336881E-04, 5.300522E-05, 4.284297E-04, -5.566325E-05, -3.080518E-04, 8.848713E-05, 2.308220E-04, -1.415206E-04, -1.542320E-04, 2.020116E-04, 3.386226E-05, -2.104444E-04, 1.120047E-04, 4.242219E-05, -2.017658E-05, -7.561098E-05, 1.825632E-06, 1.993262E-05, -1.204708E-04, -1.341428E-04, -3.534848E-04, -1.378026E-03, -1.663517E-03, 6.928344E-04, 2.756343E-03, 3.907994E-04, -2.774283E-03, -8.391459E-04, 2.373495E-03, 7.032244E-04, -1.898404E-03, -3.404900E-04, 1.462990E-03, -1.197773E-05, -1.107808E-03, 3.158772E-04, 7.849172E-04, -5.791821E-04, -3.870542E-04, 7.027471E-04, -8.809992E-05, -5.532506E-04, 4.798953E-04, 0.000000E+00],
  [9.370957E-06, 2.785279E-04, 3.811893E-04, 1.513053E-04, -2.258556E-04, -8.660109E-04, -1.876341E-03, -2.094692E-03, -8.561295E-05, 2.592338E-03, 2.249728E-03, -8.907961E-04, -2.121423E-03, -3.021480E-05, 1.368897E-03, 2.003966E-04, -7.795920E-04, -1.345865E-04, 4.393315E-04, 5.720405E-05, -2.693200E-04, -1.139923E-06, 1.890168E-04, -4.867062E-05, -1.415206E-04, 1.050308E-04, 8.012156E-05, -1.516357E-04, 2.165520E-05, 1.363246E-04, -1.273525E-04, -6.112293E-05, -8.709769E-05, -3.512892E-04, -7.946063E-04, -5.476407E-04, 5.122267E-04, 6.007835E-04, -7.003314E-04, -3.034147E-04, 2.355241E-03, 2.057807E-03, -2.162647E-03, -2.802100E-03, 1.627632E-03, 2.479081E-03, -1.402279E-03, -1.717680E-03, 1.341183E-03, 9.110268E-04, -1.239302E-03, -2.216228E-04, 1.018223E-03, -3.067714E-04, -6.534765E-04, 6.327374E-04, 1.562852E-04, -6.582460E-04, 3.429355E-04, 3.242356E-04, -5.802945E-04, 0.000000E+00],
  [-3.892853E-05, -2.247325E-04, -2.486677E-04, -1.757129E-04, -3.215662E-04, -4.832268E-04, 7.678213E-05, 1.474759E-03, 2.241935E-03, 8.122022E-04, -1.553707E-03, -1.784257E-03, 2.104629E-04, 1.316639E-03, 3.503804E-04, -6.788273E-04, -4.143607E-04, 2.860784E-04, 3.395058E-04, -1.118668E-04, -2.623266E-04, 5.928936E-05, 2.039712E-04, -6.168035E-05, -1.542320E-04, 8.012156E-05, 1.090102E-04, -1.026130E-04, -5.982052E-05, 1.231037E-04, -1.063118E-05, 4.435676E-05, 9.221039E-05, 4.739129E-04, 1.172092E-03, 1.180942E-03, -1.191185E-04, -9.364063E-04, 7.780339E-04, 2.695175E-03, 5.962165E-04, -3.237149E-03, -2.187466E-03, 2.348374E-03, 2.457944E-03, -1.446489E-03, -1.905440E-03, 9.138436E-04, 1.181748E-03, -5.836673E-04, -6.147958E-04, 3.011414E-04, 3.292993E-04, -8.309251E-05, -3.066854E-04, 4.625146E-05, 3.712305E-04, -2.206179E-04, -2.852342E-04, 4.273783E-04, -2.798832E-05, 0.000000E+00],
  [3.390477E-05, 4.706726E-05, -5.694562E-05, 1.322083E-05, 5.720169E-04, 1.494834E-03, 2.108159E-03, 1.177803E-03, -1.586679E-03, -3.439009E-03, -1.441770E-03, 2.047606E-03, 2.129826E-03, -6.248862E-04, -1.560356E-03, 3.268881E-05, 9.321512E-04, 1.018122E-04, -5.523317E-04, -8.251414E-05, 3.706226E-04, 1.429083E-05, -2.805737E-04, 7.318208E-05, 2.020116E-04, -1.516357E-04, -1.026130E-04, 1.946421E-04, -2.107966E-05, -1.723494E-04, 1.431215E-04, -3.155462E-06, 1.503565E-05, -1.440723E-04, -6.351389E-04, -1.074016E-03, -5.145507E-04, 1.025903E-03, 1.093301E-03, -1.982769E-03, -4.042187E-03, -2.350849E-04, 4.450778E-03, 1.832149E-03, -3.523000E-03, -1.948103E-03, 2.610167E-03, 1.323775E-03, -1.953212E-03, -6.075901E-04, 1.451758E-03, 6.844861E-05, -1.059609E-03, 3.022000E-04, 7.281791E-04, -5.907541E-04, -3.278685E-04, 7.379965E-04, -1.960302E-04, -5.421314E-04, 6.105874E-04, 0.000000E+00],
  [-1.148016E-05, 1.368293E-04, 3.446684E-04, 3.001490E-04, -7.178992E-05, -7.614489E-04, -2.012112E-03, -3.084725E-03, -1.795647E-03, 1.758628E-03, 3.338217E-03, 7.433487E-04, -1.988337E-03, -1.228040E-03, 7.491333E-04, 8.363820E-04, -1.723012E-04, -4.360371E-04, -1.506321E-05, 2.070601E-04, 4.407349E-05, -8.882144E-05, -3.154187E-05, 1.698177E-05, 3.386226E-05, 2.165520E-05, -5.982052E-05, -2.107966E-05, 9.188817E-05, -2.268802E-05, -9.727402E-05, -3.496411E-05, -1.368820E-04, -3.926513E-04, -5.972728E-04, -9.398968E-05, 8.010783E-04, -3.298273E-05, -2.625576E-03, -2.196299E-03, 2.889628E-03, 4.866750E-03, -7.819825E-04, -4.786784E-03, -3.895922E-04, 3.529090E-03, 3.658126E-04, -2.254818E-03, 6.889665E-05, 1.223328E-03, -3.920878E-04, -4.279381E-04, 4.364765E-04, -1.387913E-04, -2.040266E-04, 4.209614E-04, -2.020308E-04, -3.237180E-04, 5.290717E-04, -1.107446E-04, -4.614025E-04, 0.000000E+00],
  [-1.689436E-06, -2.140064E-04, -4.071485E-04, -4.713880E-04, -6.769340E-04, -1.069657E-03, -6.273383E-04, 1.591227E-03, 3.750302E-03, 2.507323E-03, -1.374666E-03, -2.952589E-03, -6.342244E-04, 1.595559E-03, 9.887414E-04, -5.754232E-04, -7.564742E-04, 1.292021E-04, 5.212444E-04, -7.566695E-06, -3.791867E-04, 2.182912E-05, 2.884071E-04, -7.795030E-05, -2.104444E-04, 1.363246E-04, 1.231037E-04, -1.723494E-04, -2.268802E-05, 1.660332E-04, -7.626595E-05, 4.655455E-05, 1.471576E-04, 6.520070E-04, 1.580027E-03, 1.628626E-03, -3.387383E-04, -1.897103E-03, 8.066092E-04, 5.024201E-03, 2.910693E-03, -4.219435E-03, -5.013012E-03, 1.983210E-03, 4.495159E-03, -7.716388E-04, -3.121888E-03, 4.486932E-04, 1.879154E-03, -3.780488E-04, -1.025868E-03, 2.669055E-04, 5.869244E-04, -1.482310E-04, -4.784493E-04, 1.876406E-04, 4.637864E-04, -4.315438E-04, -2.404608E-04, 6.305690E-04, -2.467651E-04, 0.000000E+00],
  [-5.714695E-06, 1.555513E-04, 1.829371E-04, 2.392903E-04, 7.881328E-04, 1.984759E-03, 3.082145E-03, 2.233397E-03, -1.304156E-03, -4.246625E-03, -2.607708E-03, 1.559371E-03, 2.619208E-03, 1.480593E-04, -1.445676E-03, -5.145902E-04, 6.426910E-04, 4.153687E-04, -3.061129E-04, -2.512132E-04, 2.087717E-04, 9.682646E-05, -1.728761E-04, 3.731063E-05, 1.120047E-04, -1.273525E-04, -1.063118E-05, 1.431215E-04, -9.727402E-05, -7.626595E-05, 1.562656E-04, -2.980676E-05, -7.995353E-06, -3.284564E-04, -1.381755E-03, -2.274273E-03, -8.642027E-04, 2.720603E-03, 3.490824E-03, -1.980728E-03, -6.866370E-03, -2.335355E-03, 5.583694E-03, 4.013923E-03, -3.402140E-03, -3.340735E-03, 2.116653E-03, 2.047351E-03, -1.502748E-03, -9.523029E-04, 1.129935E-03, 2.193932E-04, -8.254619E-04, 2.388502E-04, 5.266395E-04, -5.384640E-04, -1.385712E-04, 6.420616E-04, -3.540735E-04, -3.738305E-04, 6.805688E-04, 0.000000E+00],
  [-8.508007E+00, -1.755504E+00, 1.520597E-01, 4.017425E-01, 8.438718E-02, 1.238210E-03, 3.160958E-02, 7.227402E-03, -1.527424E-02, -2.024231E-03, 5.667017E-03, -4.039658E-04, -1.794867E-03, 6.663569E-04, 3.685307E-04, -3.635027E-04, 4.053373E-05, 8.458560E-05, -4.355435E-05, 2.146217E-06, -1.201408E-05, 3.521183E-05, -3.200796E-05, -1.752520E-06, 4.242219E-05, -6.112293E-05, 4.435676E-05, -3.155462E-06, -3.496411E-05, 4.655455E-05, -2.980676E-05, 3.543858E+00, 3.023984E+00, 1.621691E+00, 4.137237E-01, -1.283351E-01, -1.274027E-01, 6.700736E-03, 3.434820E-02, -1.065590E-03, -9.834516E-03, 1.351329E-03, 2.751890E-03, -9.477602E-04, -6.711874E-04, 4.943252E-04, 1.161272E-04, -2.676199E-04, 7.091056E-05, 1.187757E-04, -1.431472E-04, 4.148500E-05, 7.085250E-05, -1.022978E-04, 4.238419E-05, 4.183423E-05, -6.992115E-05, 2.084929E-05, 5.085823E-05, -6.933360E-05, 9.984838E-06, 0.000000E+00]]

/-- `Daejeon16_public_v2.f90` 532-547. -/
def coup3sd_3 : List (List Num) := [
  [-5.718761E+00, -4.751165E+00, -1.634720E+00, 3.555324E-01, 6.367158E-01, 3.641977E-01, 1.428494E-01, 1.843682E-03, -5.335422E-02, -1.608206E-02, 1.902341E-02, 5.189507E-03, -7.918797E-03, -1.989228E-04, 3.095714E-03, -9.802065E-04, -8.638511E-04, 8.095884E-04, -4.855626E-05, -3.454198E-04, 2.645373E-04, -2.455490E-05, -1.305845E-04, 1.294838E-04, -2.017658E-05, -8.709769E-05, 9.221039E-05, 1.503565E-05, -1.368820E-04, 1.471576E-04, -7.995353E-06, 3.023984E+00, 5.050300E+00, 4.241300E+00, 1.946057E+00, 8.600639E-02, -4.382451E-01, -1.290921E-01, 1.137260E-01, 4.851044E-02, -3.860835E-02, -1.344061E-02, 1.548137E-02, 1.677479E-03, -6.084388E-03, 1.229750E-03, 1.917940E-03, -1.286745E-03, -2.141275E-04, 7.280930E-04, -3.756458E-04, -1.483596E-04, 4.157713E-04, -3.148072E-04, -4.360351E-05, 3.797421E-04, -4.050618E-04, 6.505346E-05, 3.714713E-04, -5.166988E-04, 2.067977E-04, 0.000000E+00],
  [-1.492383E+00, -3.537247E+00, -3.431098E+00, -7.362428E-01, 1.164538E+00, 1.399587E+00, 7.332825E-01, 7.115815E-02, -1.727989E-01, -7.593918E-02, 4.453265E-02, 2.846797E-02, -1.857324E-02, -7.702556E-03, 9.348716E-03, 7.404196E-05, -3.980173E-03, 1.841870E-03, 7.655021E-04, -1.328683E-03, 6.060242E-04, 1.778883E-04, -5.390331E-04, 4.619718E-04, -7.561098E-05, -3.512892E-04, 4.739129E-04, -1.440723E-04, -3.926513E-04, 6.520070E-04, -3.284564E-04, 1.621691E+00, 4.241300E+00, 5.663622E+00, 4.091320E+00, 1.153433E+00, -5.909573E-01, -4.896827E-01, 1.293757E-01, 1.879113E-01, -4.971946E-02, -6.867517E-02, 2.883353E-02, 2.110991E-02, -1.673135E-02, -3.237008E-03, 7.836403E-03, -1.817883E-03, -2.443931E-03, 2.043309E-03, -1.224981E-04, -9.218255E-04, 9.342275E-04, -4.459345E-04, -2.635801E-04, 9.191404E-04, -1.024696E-03, 2.840121E-04, 8.858369E-04, -1.518452E-03, 9.305704E-04, 0.000000E+00],
  [3.431518E-01, -7.679613E-01, -2.170465E+00, -1.414510E+00, 1.149533E+00, 2.636606E+00, 2.052031E+00, 5.789135E-01, -2.994595E-01, -2.600593E-01, 4.240957E-02, 8.573915E-02, -1.885591E-02, -2.804306E-02, 1.399694E-02, 6.740048E-03, -8.419847E-03, 9.054762E-04, 3.188051E-03, -2.247614E-03, 1.041130E-04, 9.353692E-04, -9.959957E-04, 6.465336E-04, 1.825632E-06, -7.946063E-04, 1.172092E-03, -6.351389E-04, -5.972728E-04, 1.580027E-03, -1.381755E-03, 4.137237E-01, 1.946057E+00, 4.091320E+00, 4.628259E+00, 2.548528E+00, 1.876063E-02, -7.080533E-01, -4.571115E-02, 3.056734E-01, 1.480093E-02, -1.372224E-01, 1.091219E-02, 5.722475E-02, -1.855583E-02, -1.884388E-02, 1.435204E-02, 2.437449E-03, -7.166055E-03, 2.352108E-03, 1.778236E-03, -1.931558E-03, 5.949533E-04, 2.295828E-05, -1.490366E-04, 6.742112E-04, -1.315589E-03, 9.656309E-04, 6.647189E-04, -2.302350E-03, 2.214062E-03, 0.000000E+00],
  [2.704855E-01, 5.304405E-01, 1.867069E-01, -8.862179E-02, 1.206107E+00, 3.197183E+00, 3.447191E+00, 1.725295E+00, -5.597364E-02, -5.115216E-01, -1.001068E-01, 1.402101E-01, 2.718978E-02, -4.899234E-02, 2.238987E-03, 1.764519E-02, -7.917653E-03, -3.948527E-03, 5.464838E-03, -1.191240E-03, -1.655646E-03, 1.489865E-03, -4.828337E-04, 1.061795E-04, 1.993262E-05, -5.476407E-04, 1.180942E-03, -1.074016E-03, -9.398968E-05, 1.628626E-03, -2.274273E-03, -1.283351E-01, 8.600639E-02, 1.153433E+00, 2.548528E+00, 2.659241E+00, 1.160421E+00, -1.563145E-01, -1.778385E-01, 2.046288E-01, 8.833901E-02, -1.352448E-01, -3.590358E-02, 7.416725E-02, 1.508576E-03, -3.509616E-02, 1.076468E-02, 1.192490E-02, -9.801877E-03, -1.046742E-03, 4.887537E-03, -1.706059E-03, -1.495512E-03, 1.203621E-03, 6.993008E-04, -1.067240E-03, -5.845380E-04, 1.986221E-03, -1.053328E-03, -1.615181E-03, 3.262741E-03, 0.000000E+00],
  [-3.739493E-02, 3.046767E-01, 9.142842E-01, 1.280471E+00, 1.741742E+00, 2.909337E+00, 3.785056E+00, 2.865633E+00, 8.118593E-01, -4.667191E-01, -3.868009E-01, 6.055128E-02, 1.118762E-01, -2.365634E-02, -2.790827E-02, 1.573090E-02, 2.880314E-03, -7.831361E-03, 3.304670E-03, 1.906903E-03, -2.845644E-03, 6.852552E-04, 1.021377E-03, -8.417951E-04, -1.204708E-04, 5.122267E-04, -1.191185E-04, -5.145507E-04, 8.010783E-04, -3.387383E-04, -8.642027E-04, -1.274027E-01, -4.382451E-01, -5.909573E-01, 1.876063E-02, 1.160421E+00, 1.622810E+00, 9.674119E-01, 1.982131E-01, -2.873913E-03, 1.928537E-03, -7.046852E-02, -4.437837E-02, 4.852582E-02, 2.302542E-02, -3.097186E-02, -3.284362E-03, 1.656885E-02, -5.032329E-03, -6.022693E-03, 5.579061E-03, 3.896887E-04, -3.623431E-03, 1.911671E-03, 1.597545E-03, -2.835995E-03, 6.723486E-04, 2.380652E-03, -2.918925E-03, 2.019810E-04, 3.051571E-03, 0.000000E+00],
  [-4.253515E-02, -7.791910E-02, 2.225059E-01, 8.633682E-01, 1.449181E+00, 2.026866E+00, 2.782244E+00, 2.944950E+00, 1.764697E+00, 1.508293E-01, -5.075752E-01, -2.038838E-01, 1.141356E-01, 6.653588E-02, -3.350354E-02, -1.315454E-02, 1.150052E-02, -1.154143E-03, -2.351771E-03, 2.541615E-03, -1.210803E-03, -7.066577E-04, 1.468240E-03, -7.792936E-04, -1.341428E-04, 6.007835E-04, -9.364063E-04, 1.025903E-03, -3.298273E-05, -1.897103E-03, 2.720603E-03, 6.700736E-03, -1.290921E-01, -4.896827E-01, -7.080533E-01, -1.563145E-01, 9.674119E-01, 1.492429E+00, 9.103987E-01, 9.616879E-02, -1.756191E-01, -8.502413E-02, -2.083052E-03, 2.566946E-02, 1.865871E-02, -1.196514E-02, -1.093800E-02, 9.209745E-03, 2.658296E-03, -5.979925E-03, 1.873731E-03, 2.044025E-03, -2.725896E-03, 1.022321E-03, 1.278951E-03, -2.347805E-03, 1.113440E-03, 1.460973E-03, -2.773759E-03, 1.202454E-03, 1.853588E-03, 0.000000E+00],
  [1.169294E-02, -7.529872E-02, -2.452668E-01, -2.120465E-01, 1.370429E-01, 6.025497E-01, 1.166657E+00, 1.800114E+00, 1.851977E+00, 9.146100E-01, -1.550363E-01, -4.009884E-01, -5.995097E-02, 1.216693E-01, 2.656318E-02, -3.744005E-02, -3.986867E-03, 1.078227E-02, -1.475717E-03, -1.729241E-03, 8.382630E-04, -4.953708E-04, 2.331181E-04, 4.623847E-04, -3.534848E-04, -7.003314E-04, 7.780339E-04, 1.093301E-03, -2.625576E-03, 8.066092E-04, 3.490824E-03, 3.434820E-02, 1.137260E-01, 1.293757E-01, -4.571115E-02, -1.778385E-01, 1.982131E-01, 9.103987E-01, 1.091157E+00, 4.897063E-01, -1.107313E-01, -1.813062E-01, -1.776446E-02, 3.763020E-02, 1.261504E-02, -4.332894E-03, -7.220743E-03, 1.718836E-04, 4.370670E-03, -9.938208E-04, -1.864701E-03, 1.046173E-03, 3.475197E-04, -2.705483E-04, -1.684985E-04, -2.392286E-04, 7.264244E-04, -6.626068E-05, -1.171714E-03, 1.137755E-03, 6.369678E-04, 0.000000E+00],
  [4.929015E-03, 1.948252E-02, -8.631548E-02, -3.600498E-01, -5.735816E-01, -5.102376E-01, -1.891776E-01, 3.535522E-01, 9.469631E-01, 1.031826E+00, 4.020926E-01, -2.248860E-01, -2.460026E-01, 2.574978E-02, 9.055613E-02, -5.920166E-03, -2.953644E-02, 5.267343E-03, 8.109762E-03, -3.190750E-03, -1.369169E-03, 7.258958E-04, 3.150596E-04, 6.376180E-04, -1.378026E-03, -3.034147E-04, 2.695175E-03, -1.982769E-03, -2.196299E-03, 5.024201E-03, -1.980728E-03, -1.065590E-03, 4.851044E-02, 1.879113E-01, 3.056734E-01, 2.046288E-01, -2.873913E-03, 9.616879E-02, 4.897063E-01, 5.903981E-01, 2.061656E-01, -1.327484E-01, -1.101912E-01, 1.773501E-02, 3.187474E-02, -8.265366E-04, -7.374807E-03, -1.733633E-03, 2.244270E-03, 1.597231E-03, -1.697550E-03, -6.114405E-04, 1.508217E-03, -2.827545E-04, -1.103490E-03, 8.381495E-04, 6.321803E-04, -1.216367E-03, -5.058855E-05, 1.530177E-03, -9.846609E-04, 0.000000E+00],
  [-3.829849E-03, 1.650617E-02, 7.668886E-02, 5.612176E-02, -1.574333E-01, -4.411353E-01, -5.726385E-01, -4.528559E-01, -6.351771E-02, 4.207216E-01, 5.421684E-01, 1.666899E-01, -1.794031E-01, -1.281608E-01, 4.863073E-02, 5.246355E-02, -1.815897E-02, -1.688953E-02, 8.808192E-03, 3.822116E-03, -4.146528E-03, -7.612621E-05, 2.110949E-03, -9.415540E-04, -1.663517E-03, 2.355241E-03, 5.962165E-04, -4.042187E-03, 2.889628E-03, 2.910693E-03, -6.866370E-03, -9.834516E-03, -3.860835E-02, -4.971946E-02, 1.480093E-02, 8.833901E-02, 1.928537E-03, -1.756191E-01, -1.107313E-01, 2.061656E-01, 3.234084E-01, 8.934926E-02, -1.070239E-01, -5.881634E-02, 2.822462E-02, 1.943280E-02, -7.603745E-03, -4.780407E-03, 1.754768E-03, 1.191742E-03, -3.598889E-04, -4.962363E-04, 4.044331E-04, 3.565767E-05, -6.121051E-04, 7.041100E-04, 3.164484E-04, -1.498777E-03, 9.637026E-04, 1.318884E-03, -2.721053E-03, 0.000000E+00],
  [6.232983E-04, -6.715917E-03, 2.035796E-02, 1.259233E-01, 2.186817E-01, 1.370134E-01, -1.132778E-01, -3.529803E-01, -4.056091E-01, -1.822480E-01, 1.760060E-01, 2.944362E-01, 7.018413E-02, -1.226103E-01, -6.093618E-02, 4.450079E-02, 2.559785E-02, -1.809850E-02, -7.106764E-03, 7.340166E-03, 4.183443E-04, -1.784067E-03, 7.159438E-04, -1.185005E-03, 6.928344E-04, 2.057807E-03, -3.237149E-03, -2.350849E-04, 4.866750E-03, -4.219435E-03, -2.335355E-03, 1.351329E-03, -1.344061E-02, -6.867517E-02, -1.372224E-01, -1.352448E-01, -7.046852E-02, -8.502413E-02, -1.813062E-01, -1.327484E-01, 8.934926E-02, 1.787070E-01, 3.462366E-02, -7.381226E-02, -2.593131E-02, 2.508020E-02, 8.389071E-03, -7.882899E-03, -1.564191E-03, 1.871448E-03, 2.334854E-04, -6.274204E-05, -2.698740E-04, -3.696220E-04, 4.827187E-04, 5.413218E-04, -1.051115E-03, -2.443348E-04, 1.877490E-03, -1.267667E-03, -1.555425E-03, 0.000000E+00],
  [6.750571E-04, -2.901212E-03, -2.734170E-02, -3.565262E-02, 4.544704E-02, 1.825827E-01, 2.211095E-01, 8.360314E-02, -1.333340E-01, -2.563934E-01, -1.600018E-01, 7.300688E-02, 1.630837E-01, 2.900962E-02, -7.770049E-02, -2.616588E-02, 3.303224E-02, 1.041900E-02, -1.439278E-02, -2.204381E-03, 6.318515E-03, -2.446547E-04, -3.272704E-03, 8.319550E-04, 2.756343E-03, -2.162647E-03, -2.187466E-03, 4.450778E-03, -7.819825E-04, -5.013012E-03, 5.583694E-03, 2.751890E-03, 1.548137E-02, 2.883353E-02, 1.091219E-02, -3.590358E-02, -4.437837E-02, -2.083052E-03, -1.776446E-02, -1.101912E-01, -1.070239E-01, 3.462366E-02, 1.006917E-01, 1.320907E-02, -4.713830E-02, -9.488370E-03, 1.828685E-02, 2.121624E-03, -6.158260E-03, 2.638687E-04, 1.644908E-03, -1.575281E-04, -5.945886E-04, -1.628943E-04, 9.461489E-04, -3.130912E-04, -1.292648E-03, 1.664565E-03, 3.342338E-04, -2.665488E-03, 2.198145E-03, 0.000000E+00],
  [-6.687286E-04, 2.113030E-03, -9.827383E-04, -3.826194E-02, -9.145501E-02, -7.241866E-02, 4.875417E-02, 1.595943E-01, 1.368654E-01, -6.876223E-03, -1.364794E-01, -1.141339E-01, 2.877730E-02, 9.234592E-02, 1.176307E-02, -4.727343E-02, -9.391555E-03, 2.154352E-02, 2.103197E-03, -8.908839E-03, 1.462229E-03, 2.359435E-03, -1.898916E-03, 1.240428E-03, 3.907994E-04, -2.802100E-03, 2.348374E-03, 1.832149E-03, -4.786784E-03, 1.983210E-03, 4.013923E-03, -9.477602E-04, 1.677479E-03, 2.110991E-02, 5.722475E-02, 7.416725E-02, 4.852582E-02, 2.566946E-02, 3.763020E-02, 1.773501E-02, -5.881634E-02, -7.381226E-02, 1.320907E-02, 5.789836E-02, 4.270367E-03, -2.888170E-02, -2.043164E-03, 1.179520E-02, -7.717269E-04, -3.788651E-03, 1.198103E-03, 5.772237E-04, -7.341812E-04, 6.078355E-04, 1.712008E-04, -1.205635E-03, 7.800062E-04, 1.173676E-03, -2.152098E-03, 3.417739E-04, 2.510837E-03, 0.000000E+00],
  [2.304115E-04, 3.673606E-04, 9.267217E-03, 2.261551E-02, 3.681598E-03, -5.991416E-02, -9.677637E-02, -3.687234E-02, 6.965408E-02, 1.066817E-01, 3.460902E-02, -6.498717E-02, -7.344969E-02, 1.028765E-02, 5.293770E-02, 4.889222E-03, -2.841565E-02, -2.992337E-03, 1.375067E-02, 1.243563E-04, -6.359552E-03, 6.992142E-04, 3.363592E-03, -7.548391E-04, -2.774283E-03, 1.627632E-03, 2.457944E-03, -3.523000E-03, -3.895922E-04, 4.495159E-03, -3.402140E-03, -6.711874E-04, -6.084388E-03, -1.673135E-02, -1.855583E-02, 1.508576E-03, 2.302542E-02, 1.865871E-02, 1.261504E-02, 3.187474E-02, 2.822462E-02, -2.593131E-02, -4.713830E-02, 4.270367E-03, 3.368812E-02, 8.365053E-04, -1.735038E-02, 7.316608E-04, 7.182667E-03, -1.407673E-03, -2.268249E-03, 6.922748E-04, 7.291080E-04, 8.998389E-05, -9.785392E-04, 7.016859E-05, 1.524015E-03, -1.340007E-03, -9.065967E-04, 2.569398E-03, -1.322075E-03, 0.000000E+00],
  [1.297660E-04, -6.156368E-04, -2.439091E-03, 7.119427E-03, 3.455639E-02, 4.530653E-02, 4.822809E-04, -6.218592E-02, -6.089081E-02, 9.228694E-03, 6.365925E-02, 3.915931E-02, -2.774829E-02, -4.516212E-02, 3.221573E-03, 3.042706E-02, 1.208514E-03, -1.649087E-02, 7.075576E-04, 7.534016E-03, -2.215204E-03, -2.187184E-03, 2.186075E-03, -9.785200E-04, -8.391459E-04, 2.479081E-03, -1.446489E-03, -1.948103E-03, 3.529090E-03, -7.716388E-04, -3.340735E-03, 4.943252E-04, 1.229750E-03, -3.237008E-03, -1.884388E-02, -3.509616E-02, -3.097186E-02, -1.196514E-02, -4.332894E-03, -8.265366E-04, 1.943280E-02, 2.508020E-02, -9.488370E-03, -2.888170E-02, 8.365053E-04, 1.967448E-02, -3.931027E-04, -1.023441E-02, 1.661941E-03, 4.086481E-03, -1.860695E-03, -8.657014E-04, 1.317250E-03, -6.322269E-04, -5.519142E-04, 1.350862E-03, -5.326547E-04, -1.305378E-03, 1.818056E-03, -1.041741E-05, -2.145564E-03, 0.000000E+00],
  [-2.598176E-04, -7.809818E-05, -2.387164E-03, -1.093896E-02, -1.355596E-02, 9.385832E-03, 3.995106E-02, 2.973814E-02, -2.022040E-02, -4.588912E-02, -1.374634E-02, 3.110312E-02, 3.033947E-02, -9.506620E-03, -2.698470E-02, -2.987859E-04, 1.782406E-02, 8.895186E-04, -1.012568E-02, 2.847976E-04, 5.326690E-03, -7.121625E-04, -3.052312E-03, 7.843075E-04, 2.373495E-03, -1.402279E-03, -1.905440E-03, 2.610167E-03, 3.658126E-04, -3.121888E-03, 2.116653E-03, 1.161272E-04, 1.917940E-03, 7.836403E-03, 1.435204E-02, 1.076468E-02, -3.284362E-03, -1.093800E-02, -7.220743E-03, -7.374807E-03, -7.603745E-03, 8.389071E-03, 1.828685E-02, -2.043164E-03, -1.735038E-02, -3.931027E-04, 1.154936E-02, -5.442127E-04, -6.000863E-03, 1.203326E-03, 2.417371E-03, -7.845946E-04, -9.419912E-04, 1.399924E-04, 9.299212E-04, -1.919841E-04, -1.239101E-03, 1.098801E-03, 6.940816E-04, -1.904333E-03, 9.210749E-04, 0.000000E+00],
  [2.058141E-04, 3.365315E-04, 1.769949E-03, 1.640881E-03, -8.316819E-03, -2.246669E-02, -1.508049E-02, 1.676854E-02, 3.136570E-02, 4.150873E-03, -2.657232E-02, -1.791504E-02, 1.323480E-02, 2.033877E-02, -2.754632E-03, -1.561831E-02, -2.697165E-04, 9.956164E-03, -6.642934E-04, -5.173279E-03, 1.700787E-03, 1.665762E-03, -1.701703E-03, 6.353694E-04, 7.032244E-04, -1.717680E-03, 9.138436E-04, 1.323775E-03, -2.254818E-03, 4.486932E-04, 2.047351E-03, -2.676199E-04, -1.286745E-03, -1.817883E-03, 2.437449E-03, 1.192490E-02, 1.656885E-02, 9.209745E-03, 1.718836E-04, -1.733633E-03, -4.780407E-03, -7.882899E-03, 2.121624E-03, 1.179520E-02, 7.316608E-04, -1.023441E-02, -5.442127E-04, 6.793836E-03, -8.631403E-04, -3.408690E-03, 1.553945E-03, 9.420535E-04, -1.336014E-03, 5.153635E-04, 5.944534E-04, -1.165781E-03, 4.351936E-04, 9.783469E-04, -1.362681E-03, 1.116992E-04, 1.365758E-03, 0.000000E+00]]

/-- `Daejeon16_public_v2.f90` 548-561. -/
def coup3sd_4 : List (List Num) := [
  [-5.127892E-05, -9.505570E-05, 2.095372E-04, 3.543330E-03, 9.038515E-03, 5.920087E-03, -1.015319E-02, -1.872315E-02, -2.238087E-03, 1.781308E-02, 1.119817E-02, -1.072362E-02, -1.439188E-02, 3.008741E-03, 1.273763E-02, 1.133550E-03, -9.432022E-03, -1.504360E-03, 6.471737E-03, 4.173322E-04, -4.112937E-03, 3.583519E-04, 2.648570E-03, -7.893941E-04, -1.898404E-03, 1.341183E-03, 1.181748E-03, -1.953212E-03, 6.889665E-05, 1.879154E-03, -1.502748E-03, 7.091056E-05, -2.141275E-04, -2.443931E-03, -7.166055E-03, -9.801877E-03, -5.032329E-03, 2.658296E-03, 4.370670E-03, 2.244270E-03, 1.754768E-03, -1.564191E-03, -6.158260E-03, -7.717269E-04, 7.182667E-03, 1.661941E-03, -6.000863E-03, -8.631403E-04, 4.091673E-03, -1.485481E-04, -2.273309E-03, 4.489978E-04, 1.196078E-03, -3.482089E-04, -8.963041E-04, 4.848188E-04, 7.801683E-04, -9.693441E-04, -1.924429E-04, 1.179824E-03, -7.843079E-04, 0.000000E+00],
  [-1.177850E-04, -1.982431E-04, -8.859562E-04, -2.446673E-03, -9.265610E-04, 6.943640E-03, 1.156728E-02, 9.169739E-04, -1.309984E-02, -7.961031E-03, 8.722222E-03, 9.864377E-03, -4.165634E-03, -9.120458E-03, 6.624626E-04, 6.919776E-03, 6.023927E-04, -4.746681E-03, -1.574280E-04, 2.870052E-03, -6.956283E-04, -1.079384E-03, 8.966192E-04, -2.934754E-04, -3.404900E-04, 9.110268E-04, -5.836673E-04, -6.075901E-04, 1.223328E-03, -3.780488E-04, -9.523029E-04, 1.187757E-04, 7.280930E-04, 2.043309E-03, 2.352108E-03, -1.046742E-03, -6.022693E-03, -5.979925E-03, -9.938208E-04, 1.597231E-03, 1.191742E-03, 1.871448E-03, 2.638687E-04, -3.788651E-03, -1.407673E-03, 4.086481E-03, 1.203326E-03, -3.408690E-03, -1.485481E-04, 2.192246E-03, -7.462529E-04, -7.913145E-04, 8.916340E-04, -2.912393E-04, -3.979249E-04, 7.576135E-04, -3.507737E-04, -5.172084E-04, 8.551800E-04, -2.286121E-04, -6.487391E-04, 0.000000E+00],
  [2.105207E-04, 2.548179E-04, 3.848453E-04, -7.129421E-05, -3.053968E-03, -6.313310E-03, -2.387554E-03, 7.168165E-03, 7.857647E-03, -3.339544E-03, -8.467568E-03, 7.144446E-04, 7.655147E-03, 1.129226E-03, -6.196733E-03, -2.058859E-03, 4.728643E-03, 1.910768E-03, -3.722555E-03, -1.059336E-03, 2.971984E-03, 5.061320E-05, -2.204231E-03, 7.052385E-04, 1.462990E-03, -1.239302E-03, -6.147958E-04, 1.451758E-03, -3.920878E-04, -1.025868E-03, 1.129935E-03, -1.431472E-04, -3.756458E-04, -1.224981E-04, 1.778236E-03, 4.887537E-03, 5.579061E-03, 1.873731E-03, -1.864701E-03, -1.697550E-03, -3.598889E-04, 2.334854E-04, 1.644908E-03, 1.198103E-03, -2.268249E-03, -1.860695E-03, 2.417371E-03, 1.553945E-03, -2.273309E-03, -7.462529E-04, 1.859246E-03, 6.575532E-06, -1.310918E-03, 4.217993E-04, 8.445298E-04, -6.931160E-04, -3.825229E-04, 8.353440E-04, -2.006638E-04, -6.090063E-04, 6.569080E-04, 0.000000E+00],
  [-1.747468E-04, -8.117188E-05, 3.231593E-04, 1.154124E-03, 1.778607E-03, 8.027388E-05, -3.510218E-03, -3.329859E-03, 2.069551E-03, 4.197557E-03, -7.381145E-04, -3.668341E-03, 1.888861E-04, 2.991955E-03, 3.061769E-04, -2.137152E-03, -5.558115E-04, 1.413429E-03, 4.569112E-04, -9.271924E-04, -1.343847E-04, 4.758200E-04, -1.045226E-04, 3.111294E-06, -1.197773E-05, -2.216228E-04, 3.011414E-04, 6.844861E-05, -4.279381E-04, 2.669055E-04, 2.193932E-04, 4.148500E-05, -1.483596E-04, -9.218255E-04, -1.931558E-03, -1.706059E-03, 3.896887E-04, 2.044025E-03, 1.046173E-03, -6.114405E-04, -4.962363E-04, -6.274204E-05, -1.575281E-04, 5.772237E-04, 6.922748E-04, -8.657014E-04, -7.845946E-04, 9.420535E-04, 4.489978E-04, -7.913145E-04, 6.575532E-06, 4.049929E-04, -2.367691E-04, 4.552185E-05, 9.596667E-05, -2.501585E-04, 2.014545E-04, 1.071675E-04, -3.322318E-04, 1.915569E-04, 1.475762E-04, 0.000000E+00],
  [4.090001E-05, -1.366358E-04, -6.251959E-04, -9.990293E-04, 2.282835E-04, 3.372254E-03, 4.042538E-03, -1.381368E-03, -6.042413E-03, -1.448499E-03, 5.259898E-03, 2.256043E-03, -4.395214E-03, -2.336496E-03, 3.534093E-03, 2.101336E-03, -2.762988E-03, -1.637993E-03, 2.279404E-03, 1.006276E-03, -2.019866E-03, -2.316397E-04, 1.698840E-03, -5.356060E-04, -1.107808E-03, 1.018223E-03, 3.292993E-04, -1.059609E-03, 4.364765E-04, 5.869244E-04, -8.254619E-04, 7.085250E-05, 4.157713E-04, 9.342275E-04, 5.949533E-04, -1.495512E-03, -3.623431E-03, -2.725896E-03, 3.475197E-04, 1.508217E-03, 4.044331E-04, -2.698740E-04, -5.945886E-04, -7.341812E-04, 7.291080E-04, 1.317250E-03, -9.419912E-04, -1.336014E-03, 1.196078E-03, 8.916340E-04, -1.310918E-03, -2.367691E-04, 1.146449E-03, -3.506457E-04, -7.193328E-04, 6.705181E-04, 1.764594E-04, -6.538845E-04, 3.087425E-04, 3.012439E-04, -4.852763E-04, 0.000000E+00],
  [9.933862E-05, 2.136421E-04, 3.840099E-04, 4.391150E-04, -3.930779E-04, -2.083955E-03, -2.087623E-03, 9.724554E-04, 3.137319E-03, 8.297657E-04, -2.247727E-03, -1.342441E-03, 1.209193E-03, 1.082987E-03, -6.778215E-04, -7.720118E-04, 5.268548E-04, 5.630967E-04, -5.560243E-04, -3.442292E-04, 5.981984E-04, 6.290436E-05, -5.198339E-04, 1.875970E-04, 3.158772E-04, -3.067714E-04, -8.309251E-05, 3.022000E-04, -1.387913E-04, -1.482310E-04, 2.388502E-04, -1.022978E-04, -3.148072E-04, -4.459345E-04, 2.295828E-05, 1.203621E-03, 1.911671E-03, 1.022321E-03, -2.705483E-04, -2.827545E-04, 3.565767E-05, -3.696220E-04, -1.628943E-04, 6.078355E-04, 8.998389E-05, -6.322269E-04, 1.399924E-04, 5.153635E-04, -3.482089E-04, -2.912393E-04, 4.217993E-04, 4.552185E-05, -3.506457E-04, 1.279944E-04, 2.039464E-04, -2.005040E-04, -4.985844E-05, 1.938035E-04, -9.596559E-05, -8.570521E-05, 1.540981E-04, 0.000000E+00],
  [-1.647370E-04, -1.084010E-04, 1.939666E-04, 2.642370E-04, -3.670061E-04, -1.172756E-03, -6.326439E-04, 1.585451E-03, 2.423032E-03, -5.533038E-04, -3.128590E-03, -3.498832E-04, 3.222891E-03, 9.329842E-04, -2.827657E-03, -1.033160E-03, 2.261780E-03, 7.875276E-04, -1.761991E-03, -4.253261E-04, 1.398725E-03, 4.812359E-05, -1.119271E-03, 3.366962E-04, 7.849172E-04, -6.534765E-04, -3.066854E-04, 7.281791E-04, -2.040266E-04, -4.784493E-04, 5.266395E-04, 4.238419E-05, -4.360351E-05, -2.635801E-04, -1.490366E-04, 6.993008E-04, 1.597545E-03, 1.278951E-03, -1.684985E-04, -1.103490E-03, -6.121051E-04, 4.827187E-04, 9.461489E-04, 1.712008E-04, -9.785392E-04, -5.519142E-04, 9.299212E-04, 5.944534E-04, -8.963041E-04, -3.979249E-04, 8.445298E-04, 9.596667E-05, -7.193328E-04, 2.039464E-04, 4.884280E-04, -4.081911E-04, -1.675067E-04, 4.261071E-04, -1.380569E-04, -2.457863E-04, 2.883870E-04, 0.000000E+00],
  [1.383148E-04, -6.277648E-05, -6.790185E-04, -9.778902E-04, 2.403422E-04, 2.728788E-03, 3.103348E-03, -1.168597E-03, -5.162171E-03, -1.992035E-03, 4.164240E-03, 3.292515E-03, -2.610402E-03, -3.113218E-03, 1.555814E-03, 2.365442E-03, -1.099225E-03, -1.593328E-03, 1.000984E-03, 9.160213E-04, -1.011809E-03, -2.849424E-04, 9.176524E-04, -2.840303E-04, -5.791821E-04, 6.327374E-04, 4.625146E-05, -5.907541E-04, 4.209614E-04, 1.876406E-04, -5.384640E-04, 4.183423E-05, 3.797421E-04, 9.191404E-04, 6.742112E-04, -1.067240E-03, -2.835995E-03, -2.347805E-03, -2.392286E-04, 8.381495E-04, 7.041100E-04, 5.413218E-04, -3.130912E-04, -1.205635E-03, 7.016859E-05, 1.350862E-03, -1.919841E-04, -1.165781E-03, 4.848188E-04, 7.576135E-04, -6.931160E-04, -2.501585E-04, 6.705181E-04, -2.005040E-04, -4.081911E-04, 4.437253E-04, 1.740202E-05, -3.872916E-04, 2.939124E-04, 8.665259E-05, -3.266478E-04, 0.000000E+00],
  [-6.191987E-05, 1.438507E-04, 6.682879E-04, 1.209529E-03, 9.588925E-04, -1.030785E-03, -3.435122E-03, -2.479233E-03, 2.093596E-03, 4.350160E-03, 6.702834E-04, -3.645734E-03, -2.256378E-03, 2.148233E-03, 2.450322E-03, -1.083669E-03, -1.960815E-03, 6.081962E-04, 1.326229E-03, -4.211372E-04, -7.882526E-04, 2.746155E-04, 4.710844E-04, -1.463211E-04, -3.870542E-04, 1.562852E-04, 3.712305E-04, -3.278685E-04, -2.020308E-04, 4.637864E-04, -1.385712E-04, -6.992115E-05, -4.050618E-04, -1.024696E-03, -1.315589E-03, -5.845380E-04, 6.723486E-04, 1.113440E-03, 7.264244E-04, 6.321803E-04, 3.164484E-04, -1.051115E-03, -1.292648E-03, 7.800062E-04, 1.524015E-03, -5.326547E-04, -1.239101E-03, 4.351936E-04, 7.801683E-04, -3.507737E-04, -3.825229E-04, 2.014545E-04, 1.764594E-04, -4.985844E-05, -1.675067E-04, 1.740202E-05, 2.237754E-04, -1.359071E-04, -1.679887E-04, 2.690014E-04, -4.324291E-05, 0.000000E+00],
  [-1.015248E-05, -7.986090E-05, -1.115979E-04, -4.833595E-04, -1.683602E-03, -2.242897E-03, 3.904431E-04, 4.575209E-03, 4.148535E-03, -2.072599E-03, -5.674921E-03, -8.712834E-04, 4.752669E-03, 2.191369E-03, -3.307562E-03, -2.112431E-03, 2.296447E-03, 1.459261E-03, -1.728586E-03, -7.413342E-04, 1.368926E-03, 1.399556E-04, -1.059977E-03, 3.282909E-04, 7.027471E-04, -6.582460E-04, -2.206179E-04, 7.379965E-04, -3.237180E-04, -4.315438E-04, 6.420616E-04, 2.084929E-05, 6.505346E-05, 2.840121E-04, 9.656309E-04, 1.986221E-03, 2.380652E-03, 1.460973E-03, -6.626068E-05, -1.216367E-03, -1.498777E-03, -2.443348E-04, 1.664565E-03, 1.173676E-03, -1.340007E-03, -1.305378E-03, 1.098801E-03, 9.783469E-04, -9.693441E-04, -5.172084E-04, 8.353440E-04, 1.071675E-04, -6.538845E-04, 1.938035E-04, 4.261071E-04, -3.872916E-04, -1.359071E-04, 4.294995E-04, -1.824592E-04, -2.470598E-04, 3.618241E-04, 0.000000E+00],
  [5.135122E-05, -4.527493E-05, -5.846838E-04, -9.326584E-04, 5.517598E-04, 3.649616E-03, 4.079873E-03, -1.269150E-03, -6.853710E-03, -4.117024E-03, 4.108534E-03, 5.859816E-03, -8.919481E-04, -4.828041E-03, -5.820033E-04, 3.235058E-03, 6.835845E-04, -2.008661E-03, -2.681495E-04, 1.136990E-03, -1.324159E-04, -4.470738E-04, 2.717091E-04, -8.783656E-05, -8.809992E-05, 3.429355E-04, -2.852342E-04, -1.960302E-04, 5.290717E-04, -2.404608E-04, -3.540735E-04, 5.085823E-05, 3.714713E-04, 8.858369E-04, 6.647189E-04, -1.053328E-03, -2.918925E-03, -2.773759E-03, -1.171714E-03, -5.058855E-05, 9.637026E-04, 1.877490E-03, 3.342338E-04, -2.152098E-03, -9.065967E-04, 1.818056E-03, 6.940816E-04, -1.362681E-03, -1.924429E-04, 8.551800E-04, -2.006638E-04, -3.322318E-04, 3.087425E-04, -9.596559E-05, -1.380569E-04, 2.939124E-04, -1.679887E-04, -1.824592E-04, 3.636056E-04, -1.397828E-04, -2.427496E-04, 0.000000E+00],
  [-6.789892E-05, 9.915915E-05, 8.471619E-04, 1.944581E-03, 1.877325E-03, -1.211702E-03, -5.563758E-03, -5.121447E-03, 1.971180E-03, 7.433122E-03, 3.360720E-03, -4.698820E-03, -5.114318E-03, 1.710907E-03, 4.356121E-03, -3.226885E-04, -3.046021E-03, 5.877095E-05, 1.953379E-03, -1.507881E-04, -1.185911E-03, 2.136910E-04, 7.382966E-04, -2.240619E-04, -5.532506E-04, 3.242356E-04, 4.273783E-04, -5.421314E-04, -1.107446E-04, 6.305690E-04, -3.738305E-04, -6.933360E-05, -5.166988E-04, -1.518452E-03, -2.302350E-03, -1.615181E-03, 2.019810E-04, 1.202454E-03, 1.137755E-03, 1.530177E-03, 1.318884E-03, -1.267667E-03, -2.665488E-03, 3.417739E-04, 2.569398E-03, -1.041741E-05, -1.904333E-03, 1.116992E-04, 1.179824E-03, -2.286121E-04, -6.090063E-04, 1.915569E-04, 3.012439E-04, -8.570521E-05, -2.457863E-04, 8.665259E-05, 2.690014E-04, -2.470598E-04, -1.397828E-04, 3.787520E-04, -1.717711E-04, 0.000000E+00],
  [7.632850E-05, -2.817297E-05, -4.177614E-04, -1.489974E-03, -3.309044E-03, -3.331978E-03, 1.510810E-03, 7.732730E-03, 6.573443E-03, -2.709515E-03, -8.415765E-03, -2.631710E-03, 5.675113E-03, 4.174624E-03, -3.000238E-03, -3.424056E-03, 1.701761E-03, 2.164754E-03, -1.246805E-03, -1.076741E-03, 1.037265E-03, 2.795918E-04, -8.072547E-04, 2.612988E-04, 4.798953E-04, -5.802945E-04, -2.798832E-05, 6.105874E-04, -4.614025E-04, -2.467651E-04, 6.805688E-04, 9.984838E-06, 2.067977E-04, 9.305704E-04, 2.214062E-03, 3.262741E-03, 3.051571E-03, 1.853588E-03, 6.369678E-04, -9.846609E-04, -2.721053E-03, -1.555425E-03, 2.198145E-03, 2.510837E-03, -1.322075E-03, -2.145564E-03, 9.210749E-04, 1.365758E-03, -7.843079E-04, -6.487391E-04, 6.569080E-04, 1.475762E-04, -4.852763E-04, 1.540981E-04, 2.883870E-04, -3.266478E-04, -4.324291E-05, 3.618241E-04, -2.427496E-04, -1.717711E-04, 3.970776E-04, 0.000000E+00],
  [0.000000E+00, 0.000000E+00, 0.000000E+00, 0.000000E+00, 0.000000E+00, 0.000000E+00, 0.000000E+00, 0.000000E+00, 0.000000E+00, 0.000000E+00, 0.000000E+00, 0.000000E+00, 0.000000E+00, 0.000000E+00, 0.000000E+00, 0.000000E+00, 0.000000E+00, 0.000000E+00, 0.000000E+00, 0.000000E+00, 0.000000E+00, 0.000000E+00, 0.000000E+00, 0.000000E+00, 0.000000E+00, 0.000000E+00, 0.000000E+00, 0.000000E+00, 0.000000E+00, 0.000000E+00, 0.000000E+00, 0.000000E+00, 0.000000E+00, 0.000000E+00, 0.000000E+00, 0.000000E+00, 0.000000E+00, 0.000000E+00, 0.000000E+00, 0.000000E+00, 0.000000E+00, 0.000000E+00, 0.000000E+00, 0.000000E+00, 0.000000E+00, 0.000000E+00, 0.000000E+00, 0.000000E+00, 0.000000E+00, 0.000000E+00, 0.000000E+00, 0.000000E+00, 0.000000E+00, 0.000000E+00, 0.000000E+00, 0.000000E+00, 0.000000E+00, 0.000000E+00, 0.000000E+00, 0.000000E+00, 0.000000E+00, 0.000000E+00]]

/-- `Daejeon16_public_v2.f90` 499-562. -/
def coup3sd : List (List Num) := coup3sd_1 ++ coup3sd_2 ++ coup3sd_3 ++ coup3sd_4

end Verif.Daejeon
