import Verif.Model.Phi

/-!
The shipped tables of poles and coefficients, `matexp_phi_pfd_dict.py` (all of them).  The decimal literals are taken as exact real
numbers (Python rounds them to doubles).  The tables `2` to `12` have real poles and are written in the source as
`coefficient * pole / 2`.
-/

namespace Ormatex

/-- `pfd_dict['IE']`, matexp_phi_pfd_dict.py:27-27 -/
noncomputable def pfd_IE : Pfd where
  poles := [⟨1, 0⟩]
  coeffs := [⟨(-1/2), 0⟩]
  c0 := 0

/-- `pfd_dict['CN']`, matexp_phi_pfd_dict.py:28-28 -/
noncomputable def pfd_CN : Pfd where
  poles := [⟨2, 0⟩]
  coeffs := [⟨(-4/2), 0⟩]
  c0 := (-1)

/-- `pfd_dict['2']`, matexp_phi_pfd_dict.py:29-33 -/
noncomputable def pfd_2 : Pfd where
  poles := [⟨0.18676273583571287, 0⟩,
    ⟨1.3048745815331186, 0⟩]
  coeffs := [⟨0.020796803046292*0.1867627358357128/2, 0⟩,
    ⟨(-1.443886338474624*1.3048745815331186/2), 0⟩]
  c0 := 0

/-- `pfd_dict['3']`, matexp_phi_pfd_dict.py:34-40 -/
noncomputable def pfd_3 : Pfd where
  poles := [⟨0.1593653890233068, 0⟩,
    ⟨0.4990631030167137, 0⟩,
    ⟨1.3209988252915925, 0⟩]
  coeffs := [⟨(-0.0056092657494325*0.1593653890233068/2), 0⟩,
    ⟨0.1689905241802131*0.4990631030167137/2, 0⟩,
    ⟨(-1.7224122778514923*1.3209988252915925/2), 0⟩]
  c0 := 0

/-- `pfd_dict['6']`, matexp_phi_pfd_dict.py:41-53 -/
noncomputable def pfd_6 : Pfd where
  poles := [⟨0.042426068840, 0⟩,
    ⟨0.101993391742, 0⟩,
    ⟨0.281871588952, 0⟩,
    ⟨0.700834344988, 0⟩,
    ⟨1.495681999245, 0⟩,
    ⟨3.820326308790, 0⟩]
  coeffs := [⟨(-0.00143004020*0.042426068840/2), 0⟩,
    ⟨0.01492008680*0.101993391742/2, 0⟩,
    ⟨(-0.14717772455*0.281871588952/2), 0⟩,
    ⟨1.12526293779*0.700834344988/2, 0⟩,
    ⟨(-4.26534836471*1.495681999245/2), 0⟩,
    ⟨2.50083847742*3.820326308790/2, 0⟩]
  c0 := 0

/-- `pfd_dict['7']`, matexp_phi_pfd_dict.py:54-68 -/
noncomputable def pfd_7 : Pfd where
  poles := [⟨0.04728751770480, 0⟩,
    ⟨0.09389080167724, 0⟩,
    ⟨0.20796050989930, 0⟩,
    ⟨0.45742555418024, 0⟩,
    ⟨0.92942003356271, 0⟩,
    ⟨1.84299554257902, 0⟩,
    ⟨4.57055955536047, 0⟩]
  coeffs := [⟨0.000163577680840*0.04728751770480/2, 0⟩,
    ⟨(-0.001764825301114*0.09389080167724/2), 0⟩,
    ⟨0.017086342009571*0.20796050989930/2, 0⟩,
    ⟨(-0.166269759575889*0.45742555418024/2), 0⟩,
    ⟨1.154271032677210*0.92942003356271/2, 0⟩,
    ⟨(-4.992218084698426*1.84299554257902/2), 0⟩,
    ⟨3.489846378219987*4.57055955536047/2, 0⟩]
  c0 := 0

/-- `pfd_dict['9']`, matexp_phi_pfd_dict.py:69-87 -/
noncomputable def pfd_9 : Pfd where
  poles := [⟨0.056131797854510, 0⟩,
    ⟨0.093507773565628, 0⟩,
    ⟨0.176213191793111, 0⟩,
    ⟨0.341961198812052, 0⟩,
    ⟨0.644990213527151, 0⟩,
    ⟨1.154420671349568, 0⟩,
    ⟨2.087344716803269, 0⟩,
    ⟨4.416197372882133, 0⟩,
    ⟨16.94267601392231, 0⟩]
  coeffs := [⟨(-0.00021252268368*0.056131797854510/2), 0⟩,
    ⟨0.00177798706778*0.093507773565628/2, 0⟩,
    ⟨(-0.01226257284106*0.176213191793111/2), 0⟩,
    ⟨0.08840286614083*0.341961198812052/2, 0⟩,
    ⟨(-0.59097156617517*0.644990213527151/2), 0⟩,
    ⟨2.80637630874143*1.154420671349568/2, 0⟩,
    ⟨(-9.03092325186823*2.087344716803269/2), 0⟩,
    ⟨7.72388099772483*4.416197372882133/2, 0⟩,
    ⟨(-2.39552422938488*16.94267601392231/2), 0⟩]
  c0 := 0

/-- `pfd_dict['12']`, matexp_phi_pfd_dict.py:88-112 -/
noncomputable def pfd_12 : Pfd where
  poles := [⟨0.048968569839576, 0⟩,
    ⟨0.061738582613138, 0⟩,
    ⟨0.076310839592970, 0⟩,
    ⟨0.141631364706521, 0⟩,
    ⟨0.242564696198963, 0⟩,
    ⟨0.347704450395387, 0⟩,
    ⟨0.583983810310623, 0⟩,
    ⟨0.721347445637681, 0⟩,
    ⟨1.152506855845640, 0⟩,
    ⟨1.937291126193810, 0⟩,
    ⟨3.999975985275870, 0⟩,
    ⟨13.87154298954836, 0⟩]
  coeffs := [⟨0.00209819941572*0.048968569839576/2, 0⟩,
    ⟨(-0.01154487508391*0.061738582613138/2), 0⟩,
    ⟨0.01770443281480*0.076310839592970/2, 0⟩,
    ⟨(-0.04807967287588*0.141631364706521/2), 0⟩,
    ⟨0.33268516895484*0.242564696198963/2, 0⟩,
    ⟨(-1.09485990208371*0.347704450395387/2), 0⟩,
    ⟨7.22889016878655*0.583983810310623/2, 0⟩,
    ⟨(-11.7424555890703*0.721347445637681/2), 0⟩,
    ⟨12.6544110175368*1.152506855845640/2, 0⟩,
    ⟨(-16.5075636662761*1.937291126193810/2), 0⟩,
    ⟨10.7817492822278*3.999975985275870/2, 0⟩,
    ⟨(-3.12870799356753*13.87154298954836/2), 0⟩]
  c0 := 0

/-- `pfd_dict['cram_2']`, matexp_phi_pfd_dict.py:113-118 -/
noncomputable def pfd_cram_2 : Pfd where
  poles := [⟨5.85051560655125e-01, (-1.18584725172368e+00)⟩]
  coeffs := [⟨1.69152633611541e-01, 8.09801111544518e-01⟩]
  c0 := 7.39031488596509e-03

/-- `pfd_dict['cram_4']`, matexp_phi_pfd_dict.py:119-126 -/
noncomputable def pfd_cram_4 : Pfd where
  poles := [⟨(-3.67838314399792e-01), (-3.65813327206335e+00)⟩,
    ⟨1.54840057053947e+00, (-1.19182585392763e+00)⟩]
  coeffs := [⟨7.33924192341467e-02, (-4.50004915853828e-01)⟩,
    ⟨(-6.16835225549377e-02), 1.90505945598002e+00⟩]
  c0 := 8.64785397253764e-05

/-- `pfd_dict['cram_6']`, matexp_phi_pfd_dict.py:127-136 -/
noncomputable def pfd_cram_6 : Pfd where
  poles := [⟨(-1.78198827592310e+00), (-6.19651246734642e+00)⟩,
    ⟨1.15855257171770e+00, (-3.61477260081914e+00)⟩,
    ⟨2.40060293893180e+00, (-1.19312930840193e+00)⟩]
  coeffs := [⟨(-8.35816171561848e-02), 1.06429260747625e-01⟩,
    ⟨6.63006870527614e-01, (-1.45141291990008e+00)⟩,
    ⟨(-5.79013004030224e-01), 4.28688856457518e+00⟩]
  c0 := 1.00850092521476e-06

/-- `pfd_dict['cram_8']`, matexp_phi_pfd_dict.py:137-148 -/
noncomputable def pfd_cram_8 : Pfd where
  poles := [⟨(-3.40853950162488e+00), (-8.77303456429069e+00)⟩,
    ⟨2.69490987211316e-01, (-6.08203259260650e+00)⟩,
    ⟨2.29224914767856e+00, (-3.60077149601589e+00)⟩,
    ⟨3.22094524492043e+00, (-1.19361960539827e+00)⟩]
  coeffs := [⟨2.81297571584993e-02, (-1.15773845637344e-02)⟩,
    ⟨(-6.32588053670348e-01), 4.43923102575321e-01⟩,
    ⟨2.43624073274394e+00, (-3.71675564017347e+00)⟩,
    ⟨(-1.83177171051097e+00), 9.52560812848048e+00⟩]
  c0 := 1.17226087170685e-08

/-- `pfd_dict['cram_10']`, matexp_phi_pfd_dict.py:149-162 -/
noncomputable def pfd_cram_10 : Pfd where
  poles := [⟨(-5.16119124302979e+00), (-1.13751562686883e+01)⟩,
    ⟨(-8.94404676017285e-01), (-8.58275691037235e+00)⟩,
    ⟨1.71540603960519e+00, (-6.03893493378298e+00)⟩,
    ⟨3.28375290565089e+00, (-3.59438677754166e+00)⟩,
    ⟨4.02773248904878e+00, (-1.19385606824434e+00)⟩]
  coeffs := [⟨(-5.78490403464585e-03), (-6.85850638879159e-04)⟩,
    ⟨2.72586987175861e-01, (-1.42117303120344e-02)⟩,
    ⟨(-2.56558500823866e+00), 1.21638575441093e+00⟩,
    ⟨7.11716523251472e+00, (-8.81953339380104e+00)⟩,
    ⟨(-4.81838207256594e+00), 2.10545977281832e+01⟩]
  c0 := 1.36124944649652e-10

/-- `pfd_dict['cram_12']`, matexp_phi_pfd_dict.py:163-178 -/
noncomputable def pfd_cram_12 : Pfd where
  poles := [⟨(-6.99868690151660e+00), (-1.39959164839812e+01)⟩,
    ⟨(-2.23596710911723e+00), (-1.11092961775039e+01)⟩,
    ⟨8.51708264651832e-01, (-8.50383285616425e+00)⟩,
    ⟨2.91786968505903e+00, (-6.01734600213627e+00)⟩,
    ⟨4.20612529541059e+00, (-3.59092083438831e+00)⟩,
    ⟨4.82749450801486e+00, (-1.19398802186977e+00)⟩]
  coeffs := [⟨8.18434270131574e-04, 5.81354278008345e-04⟩,
    ⟨(-6.85715711623562e-02), (-3.84191285985686e-02)⟩,
    ⟨1.31941306332260e+00, 1.83523737244250e-01⟩,
    ⟨(-8.23826500781163e+00), 2.79619498384434e+00⟩,
    ⟨1.87859968667811e+01, (-2.02373082954351e+01)⟩,
    ⟨(-1.17993917808008e+01), 4.64116856362637e+01⟩]
  c0 := 1.58534296801349e-12

/-- `pfd_dict['cram_14']`, matexp_phi_pfd_dict.py:179-196 -/
noncomputable def pfd_cram_14 : Pfd where
  poles := [⟨(-8.89776335559386e+00), (-1.66310424891922e+01)⟩,
    ⟨(-3.70325865539288e+00), (-1.36564192417010e+01)⟩,
    ⟨(-2.08740339522644e-01), (-1.09912980673354e+01)⟩,
    ⟨2.26980309812278e+00, (-8.46176610597348e+00)⟩,
    ⟨3.99338984786249e+00, (-6.00485105497372e+00)⟩,
    ⟨5.08936590644999e+00, (-3.58883538004867e+00)⟩,
    ⟨5.62316381279459e+00, (-1.19407277946834e+00)⟩]
  coeffs := [⟨(-7.15521523238176e-05), (-1.43608007659726e-04)⟩,
    ⟨9.43998672025360e-03, 1.71846681983437e-02⟩,
    ⟨(-3.76379639426443e-01), (-3.35176731088570e-01)⟩,
    ⟨4.80725100674467e+00, 1.32088027842785e+00⟩,
    ⟨(-2.34986639171858e+01), 5.80891920557765e+00⟩,
    ⟨4.69339098639509e+01, (-4.56452343927213e+01)⟩,
    ⟨(-2.78754857485678e+01), 1.02149923836364e+02⟩]
  c0 := 2.89768209427166e-14

/-- `pfd_dict['cram_16']`, matexp_phi_pfd_dict.py:197-214 -/
noncomputable def pfd_cram_16 : Pfd where
  poles := [⟨(-10.843917078696988026), 19.277446167181652284⟩,
    ⟨(-5.2649713434426468895), 16.220221473167927305⟩,
    ⟨5.9481522689511774808, 3.5874573620183222829⟩,
    ⟨3.5091036084149180974, 8.4361989858843750826⟩,
    ⟨6.4161776990994341923, 1.1941223933701386874⟩,
    ⟨1.4193758971856659786, 10.925363484496722585⟩,
    ⟨4.9931747377179963991, 5.9968817136039422260⟩,
    ⟨(-1.4139284624888862114), 13.497725698892745389⟩]
  coeffs := [⟨(-0.0000005090152186522491565), (-0.00002422001765285228797)⟩,
    ⟨0.00021151742182466030907, 0.0043892969647380673918⟩,
    ⟨113.39775178483930527, 101.9472170421585645⟩,
    ⟨15.059585270023467528, (-5.7514052776421819979)⟩,
    ⟨(-64.500878025539646595), (-224.59440762652096056)⟩,
    ⟨(-1.4793007113557999718), 1.7686588323782937906⟩,
    ⟨(-62.518392463207918892), (-11.19039109428322848)⟩,
    ⟨0.041023136835410021273, (-0.15743466173455468191)⟩]
  c0 := 2.1248537104952237488e-16

/-- `pfd_dict['pade_2_2']`, matexp_phi_pfd_dict.py:216-221 -/
noncomputable def pfd_pade_2_2 : Pfd where
  poles := [⟨3.00000000000000e+00, (-1.73205080756888e+00)⟩]
  coeffs := [⟨6.00000000000001e+00, 1.03923048454133e+01⟩]
  c0 := 1.00000000000000e+00

/-- `pfd_dict['pade_4_4']`, matexp_phi_pfd_dict.py:222-229 -/
noncomputable def pfd_pade_4_4 : Pfd where
  poles := [⟨4.20757879435925e+00, (-5.31483608371350e+00)⟩,
    ⟨5.79242120564075e+00, (-1.73446825786901e+00)⟩]
  coeffs := [⟨(-4.63199473275219e+01), (-1.68904547642448e+01)⟩,
    ⟨6.63199473275222e+01, 1.73258724085706e+02⟩]
  c0 := 1.00000000000000e+00

/-- `pfd_dict['pade_6_6']`, matexp_phi_pfd_dict.py:230-239 -/
noncomputable def pfd_pade_6_6 : Pfd where
  poles := [⟨5.03186449562165e+00, (-8.98534590730785e+00)⟩,
    ⟨7.47141671265165e+00, (-5.25254462289436e+00)⟩,
    ⟨8.49671879172674e+00, (-1.73501934646256e+00)⟩]
  coeffs := [⟨1.24339406800894e+02, (-3.64167248388270e+01)⟩,
    ⟨(-9.02095430653923e+02), (-6.26701245216939e+02)⟩,
    ⟨8.19756023853109e+02, 2.61209107117835e+03⟩]
  c0 := 1.00000000000000e+00

/-- `pfd_dict['pade_8_8']`, matexp_phi_pfd_dict.py:240-251 -/
noncomputable def pfd_pade_8_8 : Pfd where
  poles := [⟨5.67796789779517e+00, (-1.27078225972097e+01)⟩,
    ⟨8.73657843440534e+00, (-8.82888500094338e+00)⟩,
    ⟨1.04096815812732e+01, (-5.23235030528453e+00)⟩,
    ⟨1.11757720865264e+01, (-1.73522889070665e+00)⟩]
  coeffs := [⟨(-1.65193072545010e+02), 2.19157995335285e+02⟩,
    ⟨4.26599883763478e+03, 2.19879464117052e+02⟩,
    ⟨(-1.46726502179705e+04), (-1.30835546536543e+04)⟩,
    ⟨1.06438444528869e+04, 3.82471699398577e+04⟩]
  c0 := 1.00000000000000e+00

/-- `pfd_dict['pade_10_10']`, matexp_phi_pfd_dict.py:252-265 -/
noncomputable def pfd_pade_10_10 : Pfd where
  poles := [⟨6.21783246729821e+00, (-1.64653989181475e+01)⟩,
    ⟨9.77243913371641e+00, (-1.24499709649411e+01)⟩,
    ⟨1.19350566571826e+01, (-8.76989437788469e+00)⟩,
    ⟨1.32305819309422e+01, (-5.22313584161276e+00)⟩,
    ⟨1.38440898108606e+01, (-1.73533039087163e+00)⟩]
  coeffs := [⟨(-4.28439839038208e+00), (-5.11065755249477e+02)⟩,
    ⟨(-1.13960793160596e+04), 6.30112461260688e+03⟩,
    ⟨9.41190589167495e+04, 2.07599514175865e+04⟩,
    ⟨(-2.24510671286932e+05), (-2.30850608866744e+05)⟩,
    ⟨1.41901976088637e+05, 5.53063875406852e+05⟩]
  c0 := 1.00000000000000e+00

/-- `pfd_dict['pade_12_12']`, matexp_phi_pfd_dict.py:266-281 -/
noncomputable def pfd_pade_12_12 : Pfd where
  poles := [⟨6.68604661560532e+00, (-2.02485936144845e+01)⟩,
    ⟨1.06594171817355e+01, (-1.61058137284905e+01)⟩,
    ⟨1.32220085000048e+01, (-1.23430699861422e+01)⟩,
    ⟨1.49311424804760e+01, (-8.74033918662028e+00)⟩,
    ⟨1.59945411994928e+01, (-5.21813307392645e+00)⟩,
    ⟨1.65068440226856e+01, (-1.73538714406579e+00)⟩]
  coeffs := [⟨5.46911825752485e+02, 6.80360699243456e+02⟩,
    ⟨1.61337734195801e+04, (-2.97018812916309e+04)⟩,
    ⟨(-3.54728405043439e+05), 1.07516699938843e+05⟩,
    ⟨1.75603924662652e+06, 5.77890603673691e+05⟩,
    ⟨(-3.34000394047559e+06), (-3.77334398690651e+06)⟩,
    ⟨1.92216841199923e+06, 7.94549540651937e+06⟩]
  c0 := 1.00000000000000e+00

/-- `pfd_dict['pade_14_14']`, matexp_phi_pfd_dict.py:282-299 -/
noncomputable def pfd_pade_14_14 : Pfd where
  poles := [⟨7.10217376676230e+00, (-2.40514760645021e+01)⟩,
    ⟨1.14407047677263e+01, (-1.97894151950504e+01)⟩,
    ⟨1.43447919238103e+01, (-1.59464347083066e+01)⟩,
    ⟨1.63976939410561e+01, (-1.22860821422987e+01)⟩,
    ⟨1.78220011108849e+01, (-8.72320835790319e+00)⟩,
    ⟨1.87262917005815e+01, (-5.21510664988429e+00)⟩,
    ⟨1.91663427891784e+01, (-1.73542205224497e+00)⟩]
  coeffs := [⟨(-1.36924413898026e+03), (-2.94842073103237e+02)⟩,
    ⟨6.59319538601401e+03, 7.79273680273329e+04⟩,
    ⟨8.24845869117295e+05, (-8.75088260655082e+05)⟩,
    ⟨(-8.28511843071903e+06), 1.36992091801833e+06⟩,
    ⟨3.00847033195425e+07, 1.22338494631399e+07⟩,
    ⟨(-4.89377678468590e+07), (-5.91446531945041e+07)⟩,
    ⟨2.63083230322416e+07, 1.13711667927895e+08⟩]
  c0 := 1.00000000000000e+00

/-- `pfd_dict['pade_16_16']`, matexp_phi_pfd_dict.py:300-319 -/
noncomputable def pfd_pade_16_16 : Pfd where
  poles := [⟨7.47846359434389e+00, (-2.78700569516453e+01)⟩,
    ⟨1.21424827653080e+01, (-2.34957498768370e+01)⟩,
    ⟨1.53464815846813e+01, (-1.95753948759233e+01)⟩,
    ⟨1.76959363887348e+01, (-1.58575457183105e+01)⟩,
    ⟨1.94246526513030e+01, (-1.22515217728443e+01)⟩,
    ⟨2.06502392671595e+01, (-8.71232672952572e+00)⟩,
    ⟨2.14379715420598e+01, (-5.21313415919739e+00)⟩,
    ⟨2.18237722064098e+01, (-1.73544479521009e+00)⟩]
  coeffs := [⟨1.90008725832969e+03, (-9.91098564053790e+02)⟩,
    ⟨(-1.04343142558914e+05), (-1.28989202208025e+05)⟩,
    ⟨(-7.60446708082224e+05), 3.35225211392260e+06⟩,
    ⟨2.55308244171525e+07, (-1.95447305410687e+07)⟩,
    ⟨(-1.66999371998587e+08), 1.24432648004869e+07⟩,
    ⟨4.90194019013028e+08, 2.28187105482266e+08⟩,
    ⟨(-7.10515108893301e+08), (-9.03571038487383e+08)⟩,
    ⟨3.62652953333272e+08, 1.62341769071525e+09⟩]
  c0 := 1.00000000000000e+00

/-- `pfd_dict['pade_1_2']`, matexp_phi_pfd_dict.py:321-326 -/
noncomputable def pfd_pade_1_2 : Pfd where
  poles := [⟨2.00000000000000e+00, (-1.41421356237309e+00)⟩]
  coeffs := [⟨1.00000000000000e+00, 3.53553390593274e+00⟩]
  c0 := 0.00000000000000e+00

/-- `pfd_dict['pade_3_4']`, matexp_phi_pfd_dict.py:327-334 -/
noncomputable def pfd_pade_3_4 : Pfd where
  poles := [⟨3.21280689687153e+00, (-4.77308743327664e+00)⟩,
    ⟨4.78719310312847e+00, (-1.56747641689521e+00)⟩]
  coeffs := [⟨(-1.13015399959715e+01), (-1.24716758502503e+01)⟩,
    ⟨1.33015399959716e+01, 6.00717327370474e+01⟩]
  c0 := 0.00000000000000e+00

/-- `pfd_dict['pade_5_6']`, matexp_phi_pfd_dict.py:335-344 -/
noncomputable def pfd_pade_5_6 : Pfd where
  poles := [⟨4.03884753448880e+00, (-8.34560041487222e+00)⟩,
    ⟨6.47051493670153e+00, (-4.90012114742143e+00)⟩,
    ⟨7.49063752880966e+00, (-1.62150238877822e+00)⟩]
  coeffs := [⟨4.35155330360737e+01, 1.40153062156404e+01⟩,
    ⟨(-2.26060411893614e+02), (-3.05103359045042e+02)⟩,
    ⟨1.85544878857546e+02, 9.17792364863869e+02⟩]
  c0 := 0.00000000000000e+00

/-- `pfd_dict['pade_7_8']`, matexp_phi_pfd_dict.py:345-356 -/
noncomputable def pfd_pade_7_8 : Pfd where
  poles := [⟨4.68549463282126e+00, (-1.20105785998140e+01)⟩,
    ⟨7.73868814683028e+00, (-8.37087930623761e+00)⟩,
    ⟨9.40637121369067e+00, (-4.96921728762378e+00)⟩,
    ⟨1.01694460066578e+01, (-1.64920179682108e+00)⟩]
  coeffs := [⟨(-9.49411688907749e+01), 2.54766624817857e+01⟩,
    ⟨1.33486473746002e+03, 7.02431010498788e+02⟩,
    ⟨(-3.84854441543743e+03), (-5.69031543380038e+03)⟩,
    ⟨2.61262084686885e+03, 1.35490601474420e+04⟩]
  c0 := 0.00000000000000e+00

/-- `pfd_dict['pade_9_10']`, matexp_phi_pfd_dict.py:357-370 -/
noncomputable def pfd_pade_9_10 : Pfd where
  poles := [⟨5.22545336734417e+00, (-1.57295290456389e+01)⟩,
    ⟨8.77643464008579e+00, (-1.19218538983026e+01)⟩,
    ⟨1.09343034305864e+01, (-8.40967299600432e+00)⟩,
    ⟨1.22261314841869e+01, (-5.01271926366086e+00)⟩,
    ⟨1.28376770777968e+01, (-1.66606258419856e+00)⟩]
  coeffs := [⟨1.18741401899989e+02, (-1.41303692321679e+02)⟩,
    ⟨(-4.65536084639950e+03), (-1.90177301373340e+00)⟩,
    ⟨2.89165722700281e+04, 1.81691851003442e+04⟩,
    ⟨(-6.12769997076806e+04), (-9.54085989073073e+04)⟩,
    ⟨3.69020468769566e+04, 1.96990463528937e+05⟩]
  c0 := 0.00000000000000e+00

/-- `pfd_dict['pade_11_12']`, matexp_phi_pfd_dict.py:371-386 -/
noncomputable def pfd_pade_11_12 : Pfd where
  poles := [⟨5.69357760582991e+00, (-1.94846293682976e+01)⟩,
    ⟨9.66460291604750e+00, (-1.55269887259726e+01)⟩,
    ⟨1.22232279800981e+01, (-1.19133708538269e+01)⟩,
    ⟨1.39287203046700e+01, (-8.44249696597909e+00)⟩,
    ⟨1.49894720849745e+01, (-5.04267301327654e+00)⟩,
    ⟨1.55003991083799e+01, (-1.67740907543385e+00)⟩]
  coeffs := [⟨(-1.97704170847133e+01), 3.16226175536364e+02⟩,
    ⟨1.06011986654780e+04, (-5.99471349030070e+03)⟩,
    ⟨(-1.31630215734835e+05), (-1.58024463608002e+04)⟩,
    ⟨5.40875915627455e+05, 3.73470946067090e+05⟩,
    ⟨(-9.41733184605207e+05), (-1.51555073365930e+06)⟩,
    ⟨5.21912056860810e+05, 2.84094757356084e+06⟩]
  c0 := 0.00000000000000e+00

/-- `pfd_dict['pade_13_14']`, matexp_phi_pfd_dict.py:387-404 -/
noncomputable def pfd_pade_13_14 : Pfd where
  poles := [⟨6.10953706591465e+00, (-2.32659732506401e+01)⟩,
    ⟨1.04466532469207e+01, (-1.91718385658776e+01)⟩,
    ⟨1.33474860188306e+01, (-1.54639361326311e+01)⟩,
    ⟨1.53970406477107e+01, (-1.19224339985898e+01)⟩,
    ⟨1.68185419182397e+01, (-8.46894658249756e+00)⟩,
    ⟨1.77208535276966e+01, (-5.06457474988492e+00)⟩,
    ⟨1.81598875746869e+01, (-1.68556744377056e+00)⟩]
  coeffs := [⟨(-2.85701447048604e+02), (-4.22573770325228e+02)⟩,
    ⟨(-1.39506796509646e+04), 2.46549472535032e+04⟩,
    ⟨4.07088889460134e+05, (-1.47454862119014e+05)⟩,
    ⟨(-2.95428486119008e+06), (-5.61988919680626e+05)⟩,
    ⟨9.34405927211906e+06, 6.84178627383522e+06⟩,
    ⟨(-1.41689554474545e+07), (-2.33291738715078e+07)⟩,
    ⟨7.38633554605862e+06, 4.07747800108961e+07⟩]
  c0 := 0.00000000000000e+00

/-- `pfd_dict['pade_15_16']`, matexp_phi_pfd_dict.py:405-424 -/
noncomputable def pfd_pade_15_16 : Pfd where
  poles := [⟨6.48562832446504e+00, (-2.70674101802466e+01)⟩,
    ⟨1.11489235555244e+01, (-2.28473895034394e+01)⟩,
    ⟨1.43502762939532e+01, (-1.90510873637885e+01)⟩,
    ⟨1.66967416249338e+01, (-1.54420808743659e+01)⟩,
    ⟨1.84227189032095e+01, (-1.19357250047256e+01)⟩,
    ⟨1.96460972994385e+01, (-8.49034450829802e+00)⟩,
    ⟨2.04322978545394e+01, (-5.08129521532765e+00)⟩,
    ⟨2.08173161439358e+01, (-1.69171657421277e+00)⟩]
  coeffs := [⟨7.46675121903952e+02, 2.33418714884332e+02⟩,
    ⟨(-2.91507593718632e+03), (-6.02533142595452e+04)⟩,
    ⟨(-8.32343305819814e+05), 9.23999524382099e+05⟩,
    ⟨1.12187257385282e+07, (-2.85904191440928e+06)⟩,
    ⟨(-5.84396390181135e+07), (-1.38271664342395e+07)⟩,
    ⟨1.53739961173302e+08, 1.17150191552697e+08⟩,
    ⟨(-2.10257270578443e+08), (-3.52009232070284e+08)⟩,
    ⟨1.04572686874704e+08, 5.83415456608851e+08⟩]
  c0 := 0.00000000000000e+00

/-- `pfd_dict['pade_2_4']`, matexp_phi_pfd_dict.py:432-439 -/
noncomputable def pfd_pade_2_4 : Pfd where
  poles := [⟨2.22098003298981e+00, (-4.16039144550693e+00)⟩,
    ⟨3.77901996701019e+00, (-1.38017652427285e+00)⟩]
  coeffs := [⟨(-1.12847937220907e+00), (-5.55441581893795e+00)⟩,
    ⟨1.12847937220902e+00, 1.98165435002508e+01⟩]
  c0 := 0.00000000000000e+00

/-- `pfd_dict['pade_4_6']`, matexp_phi_pfd_dict.py:440-449 -/
noncomputable def pfd_pade_4_6 : Pfd where
  poles := [⟨3.04820604352082e+00, (-7.65179101975736e+00)⟩,
    ⟨5.46925946457495e+00, (-4.51993080329624e+00)⟩,
    ⟨6.48253449190422e+00, (-1.49931062048593e+00)⟩]
  coeffs := [⟨9.31576610791283e+00, 1.31078709410473e+01⟩,
    ⟨(-3.71569761471564e+01), (-1.24633830491560e+02)⟩,
    ⟨2.78412100392598e+01, 3.15065309685825e+02⟩]
  c0 := 0.00000000000000e+00

/-- `pfd_dict['pade_6_8']`, matexp_phi_pfd_dict.py:450-461 -/
noncomputable def pfd_pade_6_8 : Pfd where
  poles := [⟨3.69485632938675e+00, (-1.12696993000969e+01)⟩,
    ⟨6.74126181787975e+00, (-7.88594968948569e+00)⟩,
    ⟨8.40225298514781e+00, (-4.69116275605494e+00)⟩,
    ⟨9.16162886758569e+00, (-1.55837739405967e+00)⟩]
  coeffs := [⟨(-3.18487263065919e+01), (-1.49528186623762e+01)⟩,
    ⟨3.12817976033756e+02, 4.28594613374877e+02⟩,
    ⟨(-7.82684808481826e+02), (-2.25394054615805e+03)⟩,
    ⟨5.01715558761609e+02, 4.73499730980113e+03⟩]
  c0 := 0.00000000000000e+00

/-- `pfd_dict['pade_8_10']`, matexp_phi_pfd_dict.py:462-475 -/
noncomputable def pfd_pade_8_10 : Pfd where
  poles := [⟨4.23452249479674e+00, (-1.49570437812812e+01)⟩,
    ⟨7.78114626446633e+00, (-1.13688916490507e+01)⟩,
    ⟨9.93338372217297e+00, (-8.03310633426764e+00)⟩,
    ⟨1.12208537793930e+01, (-4.79296416756328e+00)⟩,
    ⟨1.18300937391710e+01, (-1.59375300588419e+00)⟩]
  coeffs := [⟨6.60829706237551e+01, (-8.73837399434558e+00)⟩,
    ⟨(-1.43520908051772e+03), (-8.37054742039505e+02)⟩,
    ⟨7.31487012615475e+03, 9.59090409250811e+03⟩,
    ⟨(-1.40890558564557e+04), (-3.71787911863322e+04)⟩,
    ⟨8.14331184019458e+03, 6.95373557758765e+04⟩]
  c0 := 0.00000000000000e+00

/-- `pfd_dict['pade_10_12']`, matexp_phi_pfd_dict.py:476-491 -/
noncomputable def pfd_pade_10_12 : Pfd where
  poles := [⟨4.70228142811029e+00, (-1.86890942420089e+01)⟩,
    ⟨8.67056097339053e+00, (-1.49254273078317e+01)⟩,
    ⟨1.12246068339195e+01, (-1.14673703426701e+01)⟩,
    ⟨1.29259172791502e+01, (-8.13362237863904e+00)⟩,
    ⟨1.39836392311261e+01, (-4.86081102719189e+00)⟩,
    ⟨1.44929942543034e+01, (-1.61733100604584e+00)⟩]
  coeffs := [⟨(-8.49832831880236e+01), 7.75367860453999e+01⟩,
    ⟨4.37578428468484e+03, 2.83201434389032e+02⟩,
    ⟨(-4.04045377690810e+04), (-2.46586957214072e+04)⟩,
    ⟨1.44784834972791e+05, 1.82669966461450e+05⟩,
    ⟨(-2.34618958097715e+05), (-5.84473205187368e+05)⟩,
    ⟨1.25947859854496e+05, 1.00930377761925e+06⟩]
  c0 := 0.00000000000000e+00

/-- `pfd_dict['pade_12_14']`, matexp_phi_pfd_dict.py:492-509 -/
noncomputable def pfd_pade_12_14 : Pfd where
  poles := [⟨5.11787189461895e+00, (-2.24527018231594e+01)⟩,
    ⟨9.45335791648157e+00, (-1.85334197602768e+01)⟩,
    ⟨1.23505043635501e+01, (-1.49656842626999e+01)⟩,
    ⟨1.43962858429022e+01, (-1.15471965661277e+01)⟩,
    ⟨1.58146338365384e+01, (-8.20671881319247e+00)⟩,
    ⟨1.67147257883642e+01, (-4.90937805514902e+00)⟩,
    ⟨1.71526203575448e+01, (-1.63417615340624e+00)⟩]
  coeffs := [⟨3.61443014831873e+01, (-1.82295255726243e+02)⟩,
    ⟨(-9.29367610371230e+03), 4.34390374321708e+03⟩,
    ⟨1.54332004514095e+05, 2.08655132031941e+04⟩,
    ⟨(-9.16398034468283e+05), (-5.62363547717655e+05)⟩,
    ⟨2.60965182162727e+06, 3.18944066032174e+06⟩,
    ⟨(-3.73564354639738e+06), (-8.93145939977566e+06)⟩,
    ⟨1.89731526905100e+06, 1.45505505433651e+07⟩]
  c0 := 0.00000000000000e+00

/-- `pfd_dict['pade_14_16']`, matexp_phi_pfd_dict.py:510-529 -/
noncomputable def pfd_pade_14_16 : Pfd where
  poles := [⟨5.49361318603890e+00, (-2.62399655049460e+01)⟩,
    ⟨1.01560781516715e+01, (-2.21798376257454e+01)⟩,
    ⟨1.33544760010611e+01, (-1.85117397684658e+01)⟩,
    ⟨1.56976183436254e+01, (-1.50149789135570e+01)⟩,
    ⟨1.74205593555198e+01, (-1.16112396752170e+01)⟩,
    ⟨1.86414951180119e+01, (-8.26233278072527e+00)⟩,
    ⟨1.94260023927384e+01, (-4.94590541832561e+00)⟩,
    ⟨1.98101574513328e+01, (-1.64681446196597e+00)⟩]
  coeffs := [⟨1.26981292664858e+02, 2.55930094697910e+02⟩,
    ⟨1.24113743672713e+04, (-1.80844288017939e+04)⟩,
    ⟨(-4.27793284860080e+05), 1.38613103424770e+05⟩,
    ⟨4.10778976637045e+06, 6.84330756086048e+05⟩,
    ⟨(-1.83663341106143e+07), (-1.11861218996792e+07)⟩,
    ⟨4.43633025775970e+07, 5.28146014031224e+07⟩,
    ⟨(-5.78177959583672e+07), (-1.34031344688548e+08)⟩,
    ⟨2.81283017741330e+07, 2.08871467218483e+08⟩]
  c0 := 0.00000000000000e+00

/-- `pfd_dict['pade_0_2']`, matexp_phi_pfd_dict.py:531-536 (the key occurs twice in the dictionary, the later entry counts) -/
noncomputable def pfd_pade_0_2 : Pfd where
  poles := [⟨1.00000000000000e+00, (-1.00000000000000e+00)⟩]
  coeffs := [⟨(-2.22044604925031e-16), 1.00000000000000e+00⟩]
  c0 := 0.00000000000000e+00

/-- `pfd_dict['pade_0_4']`, matexp_phi_pfd_dict.py:537-544 -/
noncomputable def pfd_pade_0_4 : Pfd where
  poles := [⟨2.70555768932294e-01, (-2.50477590436243e+00)⟩,
    ⟨1.72944423106770e+00, (-8.88974376121866e-01)⟩]
  coeffs := [⟨5.41413348429157e-01, (-2.48562520866118e-01)⟩,
    ⟨(-5.41413348429161e-01), 1.58885918222328e+00⟩]
  c0 := 0.00000000000000e+00

/-- `pfd_dict['pade_0_6']`, matexp_phi_pfd_dict.py:545-554 -/
noncomputable def pfd_pade_0_6 : Pfd where
  poles := [⟨(-8.03611571031847e-01), (-3.69770175362915e+00)⟩,
    ⟨1.44180139054954e+00, (-2.43452268180838e+00)⟩,
    ⟨2.36181018048230e+00, (-8.38350277917965e-01)⟩]
  coeffs := [⟨(-6.93778561443808e-02), (-2.35235058050698e-01)⟩,
    ⟨1.40014779412034e+00, (-9.32961814214537e-02)⟩,
    ⟨(-1.33076993797599e+00), 2.58304782188010e+00⟩]
  c0 := 0.00000000000000e+00

/-- `pfd_dict['pade_0_8']`, matexp_phi_pfd_dict.py:555-566 -/
noncomputable def pfd_pade_0_8 : Pfd where
  poles := [⟨(-2.03982240971916e+00), (-4.71861488392358e+00)⟩,
    ⟨7.88793620387625e-01, (-3.77181078395020e+00)⟩,
    ⟨2.28642928417117e+00, (-2.37771166779397e+00)⟩,
    ⟨2.96459950516036e+00, (-8.08878327313509e-01)⟩]
  coeffs := [⟨(-8.20552427903143e-02), (-1.01155007136702e-02)⟩,
    ⟨(-6.50104001054763e-02), (-8.26841879668142e-01)⟩,
    ⟨2.84091532112892e+00, 4.48411147210860e-01⟩,
    ⟨(-2.69384967823308e+00), 4.29578199999286e+00⟩]
  c0 := 0.00000000000000e+00

/-- `pfd_dict['pade_0_10']`, matexp_phi_pfd_dict.py:567-580 -/
noncomputable def pfd_pade_0_10 : Pfd where
  poles := [⟨(-3.37487022847215e+00), (-5.62602017969823e+00)⟩,
    ⟨(-6.62015463014981e-02), (-4.96767937040435e+00)⟩,
    ⟨1.87166001041949e+00, (-3.77019023140995e+00)⟩,
    ⟨3.01553577042595e+00, (-2.33522385775063e+00)⟩,
    ⟨3.55387599392821e+00, (-7.89422082894959e-01)⟩]
  coeffs := [⟨(-1.56520698763973e-02), 1.89322037375803e-02⟩,
    ⟨(-3.92621818570063e-01), (-5.26313658859047e-02)⟩,
    ⟨2.16732442540199e-01, (-2.06720532628002e+00)⟩,
    ⟨5.31199503882675e+00, 1.67906283892061e+00⟩,
    ⟨(-5.12045359292016e+00), 7.24858522431007e+00⟩]
  c0 := 0.00000000000000e+00

/-- `pfd_dict['pade_0_12']`, matexp_phi_pfd_dict.py:581-596 -/
noncomputable def pfd_pade_0_12 : Pfd where
  poles := [⟨(-4.77819607660492e+00), (-6.45117633742040e+00)⟩,
    ⟨(-1.05342363965627e+00), (-6.05949143386437e+00)⟩,
    ⟨1.24912514335839e+00, (-5.04955510728409e+00)⟩,
    ⟨2.75798923119196e+00, (-3.75254838235373e+00)⟩,
    ⟨3.68889710244616e+00, (-2.30275714924704e+00)⟩,
    ⟨4.13560823926466e+00, (-7.75542049110205e-01)⟩]
  coeffs := [⟨1.35373864938572e-03, 6.54563472611298e-03⟩,
    ⟨(-7.76274759883027e-02), 1.43895857754979e-01⟩,
    ⟨(-1.18791589294929e+00), (-2.80064434173582e-01)⟩,
    ⟨1.13102534164352e+00, (-4.46148910130248e+00)⟩,
    ⟨9.59115507214772e+00, 4.20796998228030e+00⟩,
    ⟨(-9.45799078350185e+00), 1.23462202436702e+01⟩]
  c0 := 0.00000000000000e+00

/-- `pfd_dict['pade_0_14']`, matexp_phi_pfd_dict.py:597-614 -/
noncomputable def pfd_pade_0_14 : Pfd where
  poles := [⟨(-6.23230903391705e+00), (-7.21314836160483e+00)⟩,
    ⟨(-2.13567746773186e+00), (-7.07056793576509e+00)⟩,
    ⟨4.83158563940126e-01, (-6.23914928340499e+00)⟩,
    ⟨2.29769841186932e+00, (-5.07839242580531e+00)⟩,
    ⟨3.54383446441261e+00, (-3.73192259264481e+00)⟩,
    ⟨4.33070823377371e+00, (-2.27723593393242e+00)⟩,
    ⟨4.71258682765313e+00, (-7.65102664662369e-01)⟩]
  coeffs := [⟨1.45138541085020e-03, 8.92468642956945e-04⟩,
    ⟨3.45113307194397e-02, 4.98378511769263e-02⟩,
    ⟨(-2.89849462555210e-01), 5.44987960103308e-01⟩,
    ⟨(-2.94621099349984e+00), (-1.02490802332328e+00)⟩,
    ⟨3.37511598168098e+00, (-8.91701164080177e+00)⟩,
    ⟨1.70247572270421e+01, 9.17348490665518e+00⟩,
    ⟨(-1.71997754687942e+01), 2.11616528867068e+01⟩]
  c0 := 0.00000000000000e+00

/-- `pfd_dict['pade_0_16']`, matexp_phi_pfd_dict.py:615-634 -/
noncomputable def pfd_pade_0_16 : Pfd where
  poles := [⟨(-3.29042476425441e+00), (-8.01661911026905e+00)⟩,
    ⟨(-7.72610219665304e+00), (-7.92459187507350e+00)⟩,
    ⟨(-3.89293357090152e-01), (-7.35544605972397e+00)⟩,
    ⟨1.69154717772922e+00, (-6.32743910805909e+00)⟩,
    ⟨3.20474966452654e+00, (-5.08588483857568e+00)⟩,
    ⟨4.27042428987533e+00, (-3.71193355559549e+00)⟩,
    ⟨4.95278138208323e+00, (-2.25666238448204e+00)⟩,
    ⟨5.28631780378328e+00, (-7.56943620481880e-01)⟩]
  coeffs := [⟨2.06654601729528e-02, (-1.06440158085741e-03)⟩,
    ⟨4.04353042024190e-04, (-8.31916866099119e-05)⟩,
    ⟨1.84776670098368e-01, 2.08658471639094e-01⟩,
    ⟨(-9.26683827995189e-01), 1.57161305600193e+00⟩,
    ⟨(-6.54506001164789e+00), (-2.98859217323853e+00)⟩,
    ⟨8.30014048250257e+00, (-1.70445424925996e+01)⟩,
    ⟨2.99491641500991e+01, 1.86642092156143e+01⟩,
    ⟨(-3.09834072762723e+01), 3.64312103860810e+01⟩]
  c0 := 0.00000000000000e+00

/-- `pfd_dict[method]`, matexp_phi.py:226: the table, or `KeyError`. -/
noncomputable def pfdDict (method : String) : Py Pfd :=
  if method = "IE" then .ok pfd_IE else
  if method = "CN" then .ok pfd_CN else
  if method = "2" then .ok pfd_2 else
  if method = "3" then .ok pfd_3 else
  if method = "6" then .ok pfd_6 else
  if method = "7" then .ok pfd_7 else
  if method = "9" then .ok pfd_9 else
  if method = "12" then .ok pfd_12 else
  if method = "cram_2" then .ok pfd_cram_2 else
  if method = "cram_4" then .ok pfd_cram_4 else
  if method = "cram_6" then .ok pfd_cram_6 else
  if method = "cram_8" then .ok pfd_cram_8 else
  if method = "cram_10" then .ok pfd_cram_10 else
  if method = "cram_12" then .ok pfd_cram_12 else
  if method = "cram_14" then .ok pfd_cram_14 else
  if method = "cram_16" then .ok pfd_cram_16 else
  if method = "pade_2_2" then .ok pfd_pade_2_2 else
  if method = "pade_4_4" then .ok pfd_pade_4_4 else
  if method = "pade_6_6" then .ok pfd_pade_6_6 else
  if method = "pade_8_8" then .ok pfd_pade_8_8 else
  if method = "pade_10_10" then .ok pfd_pade_10_10 else
  if method = "pade_12_12" then .ok pfd_pade_12_12 else
  if method = "pade_14_14" then .ok pfd_pade_14_14 else
  if method = "pade_16_16" then .ok pfd_pade_16_16 else
  if method = "pade_1_2" then .ok pfd_pade_1_2 else
  if method = "pade_3_4" then .ok pfd_pade_3_4 else
  if method = "pade_5_6" then .ok pfd_pade_5_6 else
  if method = "pade_7_8" then .ok pfd_pade_7_8 else
  if method = "pade_9_10" then .ok pfd_pade_9_10 else
  if method = "pade_11_12" then .ok pfd_pade_11_12 else
  if method = "pade_13_14" then .ok pfd_pade_13_14 else
  if method = "pade_15_16" then .ok pfd_pade_15_16 else
  if method = "pade_2_4" then .ok pfd_pade_2_4 else
  if method = "pade_4_6" then .ok pfd_pade_4_6 else
  if method = "pade_6_8" then .ok pfd_pade_6_8 else
  if method = "pade_8_10" then .ok pfd_pade_8_10 else
  if method = "pade_10_12" then .ok pfd_pade_10_12 else
  if method = "pade_12_14" then .ok pfd_pade_12_14 else
  if method = "pade_14_16" then .ok pfd_pade_14_16 else
  if method = "pade_0_2" then .ok pfd_pade_0_2 else
  if method = "pade_0_4" then .ok pfd_pade_0_4 else
  if method = "pade_0_6" then .ok pfd_pade_0_6 else
  if method = "pade_0_8" then .ok pfd_pade_0_8 else
  if method = "pade_0_10" then .ok pfd_pade_0_10 else
  if method = "pade_0_12" then .ok pfd_pade_0_12 else
  if method = "pade_0_14" then .ok pfd_pade_0_14 else
  if method = "pade_0_16" then .ok pfd_pade_0_16 else
  .error .key

end Ormatex
