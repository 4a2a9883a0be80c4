import Verif.Props.EffectivePackingSW

/-!
# C153: the second-order term of the square-well fluid lowers the energy

The second-order term of the expansion is minus a variance of the attractive energy, so it cannot be positive.  In the code
it is minus a product of factors one of which is the derivative of the packing fraction times the contact value
(C59), a function of the range and the packing fraction that need not be positive.

As in C151, inequalities in two variables are shown by writing polynomials with positive coefficients in the distances from
the sides of a rectangle.
-/

namespace Verif.Props
open Verif Verif.Saft Verif.GammaSW Verif.SWTerms

/-! ## Polynomials -/

/-- The effective packing fraction as a polynomial. -/
private noncomputable def fluctEta (u z : ℝ) : ℝ :=
  z * (2.25855 - 1.50349 * u + 0.249434 * u ^ 2) + z ^ 2 * (-0.669270 + 1.40049 * u - 0.827739 * u ^ 2)
    + z ^ 3 * (10.1576 - 15.0427 * u + 5.30827 * u ^ 2)

/-- The derivative times the fourth power of the effective free fraction. -/
private noncomputable def fluctNum (u z : ℝ) : ℝ :=
  (1 - fluctEta u z / 2) * (1 - fluctEta u z) +
    (z * (2.25855 - 1.50349 * u + 0.249434 * u ^ 2) + 2 * z ^ 2 * (-0.669270 + 1.40049 * u - 0.827739 * u ^ 2)
      + 3 * z ^ 3 * (10.1576 - 15.0427 * u + 5.30827 * u ^ 2)) * (2.5 - fluctEta u z)

/-- Rectangle 1. -/
private theorem second_0 (u z : ℝ) (hu0 : 1 ≤ u) (hu1 : u ≤ 149/100) (hz0 : 0 ≤ z) (hz1 : z ≤ 13/20) :
    1/10000 ≤ fluctNum u z := by
  have ha : 0 ≤ u - 1 := by linarith
  have hb : 0 ≤ 149/100 - u := by linarith
  have hd : 0 ≤ 13/20 - z := by linarith
  obtain ⟨q0, e0⟩ : ∃ q : ℝ, q =
      (6399360000000000/27825593350009) * (149/100 - u) ^ 4 +
      (25597440000000000/27825593350009) * (u - 1) * (149/100 - u) ^ 3 +
      (38396160000000000/27825593350009) * (u - 1) ^ 2 * (149/100 - u) ^ 2 +
      (25597440000000000/27825593350009) * (u - 1) ^ 3 * (149/100 - u) +
      (6399360000000000/27825593350009) * (u - 1) ^ 4 := ⟨_, rfl⟩
  have h0 : 0 ≤ q0 := by
    rw [e0]
    generalize u - 1 = a at *
    generalize 149/100 - u = b at *
    clear * - ha hb
    positivity
  obtain ⟨q1, e1⟩ : ∃ q : ℝ, q =
      (42574855040000000/27825593350009) * (149/100 - u) ^ 4 +
      (168251598675200000/27825593350009) * (u - 1) * (149/100 - u) ^ 3 +
      (249554804455744000/27825593350009) * (u - 1) ^ 2 * (149/100 - u) ^ 2 +
      (164654233045888000/27825593350009) * (u - 1) ^ 3 * (149/100 - u) +
      (40776172225344000/27825593350009) * (u - 1) ^ 4 := ⟨_, rfl⟩
  have h1 : 0 ≤ q1 := by
    rw [e1]
    generalize u - 1 = a at *
    generalize 149/100 - u = b at *
    clear * - ha hb
    positivity
  obtain ⟨q2, e2⟩ : ∃ q : ℝ, q =
      (16372320043279904/3975084764287) * (149/100 - u) ^ 4 +
      (1601215887473630576/99377119107175) * (u - 1) * (149/100 - u) ^ 3 +
      (58594502643874597854/2484427977679375) * (u - 1) ^ 2 * (149/100 - u) ^ 2 +
      (950893286566963780721/62110699441984375) * (u - 1) ^ 3 * (149/100 - u) +
      (46192465060490590853937/12422139888396875000) * (u - 1) ^ 4 := ⟨_, rfl⟩
  have h2 : 0 ≤ q2 := by
    rw [e2]
    generalize u - 1 = a at *
    generalize 149/100 - u = b at *
    clear * - ha hb
    positivity
  obtain ⟨q3, e3⟩ : ∃ q : ℝ, q =
      (827335003465426896/139127966750045) * (149/100 - u) ^ 4 +
      (77426354426836331964/3478199168751125) * (u - 1) * (149/100 - u) ^ 3 +
      (2726198803138226851696/86954979218778125) * (u - 1) ^ 2 * (149/100 - u) ^ 2 +
      (171376250624554993791611/8695497921877812500) * (u - 1) ^ 3 * (149/100 - u) +
      (4062083188199983341464271/869549792187781250000) * (u - 1) ^ 4 := ⟨_, rfl⟩
  have h3 : 0 ≤ q3 := by
    rw [e3]
    generalize u - 1 = a at *
    generalize 149/100 - u = b at *
    clear * - ha hb
    positivity
  obtain ⟨q4, e4⟩ : ∃ q : ℝ, q =
      (6852444475933477237/1391279667500450) * (149/100 - u) ^ 4 +
      (293120110133195798444/17390995843755625) * (u - 1) * (149/100 - u) ^ 3 +
      (151640122283899864930921/6956398337502250000) * (u - 1) ^ 2 * (149/100 - u) ^ 2 +
      (1113674624312416585435607/86954979218778125000) * (u - 1) ^ 3 * (149/100 - u) +
      (407629040605861888275072957/139127966750045000000000) * (u - 1) ^ 4 := ⟨_, rfl⟩
  have h4 : 0 ≤ q4 := by
    rw [e4]
    generalize u - 1 = a at *
    generalize 149/100 - u = b at *
    clear * - ha hb
    positivity
  obtain ⟨q5, e5⟩ : ∃ q : ℝ, q =
      (61764943537570523/27825593350009) * (149/100 - u) ^ 4 +
      (927304151364277318/139127966750045) * (u - 1) * (149/100 - u) ^ 3 +
      (1013753943430643093277/139127966750045000) * (u - 1) ^ 2 * (149/100 - u) ^ 2 +
      (2493958905864033526307/695639833750225000) * (u - 1) ^ 3 * (149/100 - u) +
      (2090337246124412795423343/2782559335000900000000) * (u - 1) ^ 4 := ⟨_, rfl⟩
  have h5 : 0 ≤ q5 := by
    rw [e5]
    generalize u - 1 = a at *
    generalize 149/100 - u = b at *
    clear * - ha hb
    positivity
  obtain ⟨q6, e6⟩ : ∃ q : ℝ, q =
      (2307244367869097887/5565118670001800) * (149/100 - u) ^ 4 +
      (19714888064315928811/17390995843755625) * (u - 1) * (149/100 - u) ^ 3 +
      (21844829221228150478721/27825593350009000000) * (u - 1) ^ 2 * (149/100 - u) ^ 2 +
      (20871101701362634433991/173909958437556250000) * (u - 1) ^ 3 * (149/100 - u) +
      (41397446747279092117807/556511867000180000000000) * (u - 1) ^ 4 := ⟨_, rfl⟩
  have h6 : 0 ≤ q6 := by
    rw [e6]
    generalize u - 1 = a at *
    generalize 149/100 - u = b at *
    clear * - ha hb
    positivity
  have key : fluctNum u z - 1/10000 =
      q0 * (13/20 - z) ^ 6 + q1 * z * (13/20 - z) ^ 5 + q2 * z ^ 2 * (13/20 - z) ^ 4 + q3 * z ^ 3 * (13/20 - z) ^ 3 + q4 * z ^ 4 * (13/20 - z) ^ 2 + q5 * z ^ 5 * (13/20 - z) + q6 * z ^ 6 := by
    rw [e0, e1, e2, e3, e4, e5, e6]
    simp only [fluctNum, fluctEta]
    ring
  refine sub_nonneg.1 ?_
  rw [key]
  clear key e0 e1 e2 e3 e4 e5 e6
  positivity

/-- Rectangle 2. -/
private theorem second_1 (u z : ℝ) (hu0 : 1623/1000 ≤ u) (hu1 : u ≤ 1341/500) (hz0 : 0 ≤ z) (hz1 : z ≤ 13/20) :
    1/10000 ≤ fluctNum u z := by
  have ha : 0 ≤ u - 1623/1000 := by linarith
  have hb : 0 ≤ 1341/500 - u := by linarith
  have hd : 0 ≤ 13/20 - z := by linarith
  obtain ⟨q0, e0⟩ : ∃ q : ℝ, q =
      (7110400000000000000/674530271753730561) * (1341/500 - u) ^ 4 +
      (28441600000000000000/674530271753730561) * (u - 1623/1000) * (1341/500 - u) ^ 3 +
      (14220800000000000000/224843423917910187) * (u - 1623/1000) ^ 2 * (1341/500 - u) ^ 2 +
      (28441600000000000000/674530271753730561) * (u - 1623/1000) ^ 3 * (1341/500 - u) +
      (7110400000000000000/674530271753730561) * (u - 1623/1000) ^ 4 := ⟨_, rfl⟩
  have h0 : 0 ≤ q0 := by
    rw [e0]
    generalize u - 1623/1000 = a at *
    generalize 1341/500 - u = b at *
    clear * - ha hb
    positivity
  obtain ⟨q1, e1⟩ : ∃ q : ℝ, q =
      (134579788606739200000/2023590815261191683) * (1341/500 - u) ^ 4 +
      (176043480077248000000/674530271753730561) * (u - 1623/1000) * (1341/500 - u) ^ 3 +
      (260263862624595200000/674530271753730561) * (u - 1623/1000) ^ 2 * (1341/500 - u) ^ 2 +
      (515511009479296000000/2023590815261191683) * (u - 1623/1000) ^ 3 * (1341/500 - u) +
      (42756691076838400000/674530271753730561) * (u - 1623/1000) ^ 4 := ⟨_, rfl⟩
  have h1 : 0 ≤ q1 := by
    rw [e1]
    generalize u - 1623/1000 = a at *
    generalize 1341/500 - u = b at *
    clear * - ha hb
    positivity
  obtain ⟨q2, e2⟩ : ∃ q : ℝ, q =
      (347626080121248125336141191/2107907099230408003125000) * (1341/500 - u) ^ 4 +
      (485982369560223548280550741/790465162211403001171875) * (u - 1623/1000) * (1341/500 - u) ^ 3 +
      (223502218899324327187125097/263488387403801000390625) * (u - 1623/1000) ^ 2 * (1341/500 - u) ^ 2 +
      (45025443835543743251511844/87829462467933666796875) * (u - 1623/1000) ^ 3 * (1341/500 - u) +
      (90207171307888521251131066/790465162211403001171875) * (u - 1623/1000) ^ 4 := ⟨_, rfl⟩
  have h2 : 0 ≤ q2 := by
    rw [e2]
    generalize u - 1623/1000 = a at *
    generalize 1341/500 - u = b at *
    clear * - ha hb
    positivity
  obtain ⟨q3, e3⟩ : ∃ q : ℝ, q =
      (12790304895632275318245790937/63237212976912240093750000) * (1341/500 - u) ^ 4 +
      (950547845101974653907088384/1317441937019005001953125) * (u - 1623/1000) * (1341/500 - u) ^ 3 +
      (883727427709510176136233181/878294624679336667968750) * (u - 1623/1000) ^ 2 * (1341/500 - u) ^ 2 +
      (2603777180298402241247178212/3952325811057015005859375) * (u - 1623/1000) ^ 3 * (1341/500 - u) +
      (75826769203088146384831853/439147312339668333984375) * (u - 1623/1000) ^ 4 := ⟨_, rfl⟩
  have h3 : 0 ≤ q3 := by
    rw [e3]
    generalize u - 1623/1000 = a at *
    generalize 1341/500 - u = b at *
    clear * - ha hb
    positivity
  obtain ⟨q4, e4⟩ : ∃ q : ℝ, q =
      (1254809590449983946203996534879/10117954076305958415000000000) * (1341/500 - u) ^ 4 +
      (185700867376387104297242199731/421581419846081600625000000) * (u - 1623/1000) * (1341/500 - u) ^ 3 +
      (332225162669384227232732980031/421581419846081600625000000) * (u - 1623/1000) ^ 2 * (1341/500 - u) ^ 2 +
      (241839295446899745198099466777/316186064884561200468750000) * (u - 1623/1000) ^ 3 * (1341/500 - u) +
      (60058099436637799718552609653/210790709923040800312500000) * (u - 1623/1000) ^ 4 := ⟨_, rfl⟩
  have h4 : 0 ≤ q4 := by
    rw [e4]
    generalize u - 1623/1000 = a at *
    generalize 1341/500 - u = b at *
    clear * - ha hb
    positivity
  obtain ⟨q5, e5⟩ : ∃ q : ℝ, q =
      (6246238462791612040720550821/202359081526119168300000000) * (1341/500 - u) ^ 4 +
      (3170430751666128519915695707/25294885190764896037500000) * (u - 1623/1000) * (1341/500 - u) ^ 3 +
      (1240172523947755168263176423/2810542798973877337500000) * (u - 1623/1000) ^ 2 * (1341/500 - u) ^ 2 +
      (4467047161676912723595873323/6323721297691224009375000) * (u - 1623/1000) ^ 3 * (1341/500 - u) +
      (4639011353312817624883796741/12647442595382448018750000) * (u - 1623/1000) ^ 4 := ⟨_, rfl⟩
  have h5 : 0 ≤ q5 := by
    rw [e5]
    generalize u - 1623/1000 = a at *
    generalize 1341/500 - u = b at *
    clear * - ha hb
    positivity
  obtain ⟨q6, e6⟩ : ∃ q : ℝ, q =
      (943100491183177295057073487/121415448915671500980000000000) * (1341/500 - u) ^ 4 +
      (186767062086443263593812005529/15176931114458937622500000000) * (u - 1623/1000) * (1341/500 - u) ^ 3 +
      (689248784179383709392823637743/5058977038152979207500000000) * (u - 1623/1000) ^ 2 * (1341/500 - u) ^ 2 +
      (925924879664117078597601897881/3794232778614734405625000000) * (u - 1623/1000) ^ 3 * (1341/500 - u) +
      (502207399918969883139782907727/7588465557229468811250000000) * (u - 1623/1000) ^ 4 := ⟨_, rfl⟩
  have h6 : 0 ≤ q6 := by
    rw [e6]
    generalize u - 1623/1000 = a at *
    generalize 1341/500 - u = b at *
    clear * - ha hb
    positivity
  have key : fluctNum u z - 1/10000 =
      q0 * (13/20 - z) ^ 6 + q1 * z * (13/20 - z) ^ 5 + q2 * z ^ 2 * (13/20 - z) ^ 4 + q3 * z ^ 3 * (13/20 - z) ^ 3 + q4 * z ^ 4 * (13/20 - z) ^ 2 + q5 * z ^ 5 * (13/20 - z) + q6 * z ^ 6 := by
    rw [e0, e1, e2, e3, e4, e5, e6]
    simp only [fluctNum, fluctEta]
    ring
  refine sub_nonneg.1 ?_
  rw [key]
  clear key e0 e1 e2 e3 e4 e5 e6
  positivity

/-- Rectangle 3. -/
private theorem second_2 (u z : ℝ) (hu0 : 149/100 ≤ u) (hu1 : u ≤ 31/20) (hz0 : 0 ≤ z) (hz1 : z ≤ 321/500) :
    1/10000 ≤ fluctNum u z := by
  have ha : 0 ≤ u - 149/100 := by linarith
  have hb : 0 ≤ 31/20 - u := by linarith
  have hd : 0 ≤ 321/500 - z := by linarith
  obtain ⟨q0, e0⟩ : ∃ q : ℝ, q =
      (10849609375000000000000/9846291838481289) * (31/20 - u) ^ 4 +
      (43398437500000000000000/9846291838481289) * (u - 149/100) * (31/20 - u) ^ 3 +
      (21699218750000000000000/3282097279493763) * (u - 149/100) ^ 2 * (31/20 - u) ^ 2 +
      (43398437500000000000000/9846291838481289) * (u - 149/100) ^ 3 * (31/20 - u) +
      (10849609375000000000000/9846291838481289) * (u - 149/100) ^ 4 := ⟨_, rfl⟩
  have h0 : 0 ≤ q0 := by
    rw [e0]
    generalize u - 149/100 = a at *
    generalize 31/20 - u = b at *
    clear * - ha hb
    positivity
  obtain ⟨q1, e1⟩ : ∃ q : ℝ, q =
      (7675901769414062500000/1094032426497921) * (31/20 - u) ^ 4 +
      (276014733602187500000000/9846291838481289) * (u - 149/100) * (31/20 - u) ^ 3 +
      (137850586865078125000000/3282097279493763) * (u - 149/100) ^ 2 * (31/20 - u) ^ 2 +
      (30599087120312500000000/1094032426497921) * (u - 149/100) ^ 3 * (31/20 - u) +
      (68771641165039062500000/9846291838481289) * (u - 149/100) ^ 4 := ⟨_, rfl⟩
  have h1 : 0 ≤ q1 := by
    rw [e1]
    generalize u - 149/100 = a at *
    generalize 31/20 - u = b at *
    clear * - ha hb
    positivity
  obtain ⟨q2, e2⟩ : ∃ q : ℝ, q =
      (7482116156335095508495213/420108451775201664) * (31/20 - u) ^ 4 +
      (22367203785539922324706205/315081338831401248) * (u - 149/100) * (31/20 - u) ^ 3 +
      (22287583020314957213786975/210054225887600832) * (u - 149/100) ^ 2 * (31/20 - u) ^ 2 +
      (7402497344910820419508375/105027112943800416) * (u - 149/100) ^ 3 * (31/20 - u) +
      (22126936459400847879824375/1260325355325604992) * (u - 149/100) ^ 4 := ⟨_, rfl⟩
  have h2 : 0 ≤ q2 := by
    rw [e2]
    generalize u - 149/100 = a at *
    generalize 31/20 - u = b at *
    clear * - ha hb
    positivity
  obtain ⟨q3, e3⟩ : ∃ q : ℝ, q =
      (7067956465204642624206361627/315081338831401248000) * (31/20 - u) ^ 4 +
      (1404289471499896063150791463/15754066941570062400) * (u - 149/100) * (31/20 - u) ^ 3 +
      (279034349275526427886732247/2100542258876008320) * (u - 149/100) ^ 2 * (31/20 - u) ^ 2 +
      (55449542759345827667783243/630162677662802496) * (u - 149/100) ^ 3 * (31/20 - u) +
      (55099617712316461352330335/2520650710651209984) * (u - 149/100) ^ 4 := ⟨_, rfl⟩
  have h3 : 0 ≤ q3 := by
    rw [e3]
    generalize u - 149/100 = a at *
    generalize 31/20 - u = b at *
    clear * - ha hb
    positivity
  obtain ⟨q4, e4⟩ : ∃ q : ℝ, q =
      (1984536132222689948820720366557/140036150591733888000000) * (31/20 - u) ^ 4 +
      (3532527530408365134431066237447/63016267766280249600000) * (u - 149/100) * (31/20 - u) ^ 3 +
      (699132335644475089885327871293/8402169035504033280000) * (u - 149/100) ^ 2 * (31/20 - u) ^ 2 +
      (15384837711050671630277759863/280072301183467776000) * (u - 149/100) ^ 3 * (31/20 - u) +
      (27442614396703016941610448373/2016520568520967987200) * (u - 149/100) ^ 4 := ⟨_, rfl⟩
  have h4 : 0 ≤ q4 := by
    rw [e4]
    generalize u - 149/100 = a at *
    generalize 31/20 - u = b at *
    clear * - ha hb
    positivity
  obtain ⟨q5, e5⟩ : ∃ q : ℝ, q =
      (19545504460189392126208753784453/5251355647190020800000000) * (31/20 - u) ^ 4 +
      (11463278689578775711192826392421/787703347078503120000000) * (u - 149/100) * (31/20 - u) ^ 3 +
      (2247385483817112369896619805399/105027112943800416000000) * (u - 149/100) ^ 2 * (31/20 - u) ^ 2 +
      (147323737850456000325134601727/10502711294380041600000) * (u - 149/100) ^ 3 * (31/20 - u) +
      (87211129426882124944478063839/25206507106512099840000) * (u - 149/100) ^ 4 := ⟨_, rfl⟩
  have h5 : 0 ≤ q5 := by
    rw [e5]
    generalize u - 149/100 = a at *
    generalize 31/20 - u = b at *
    clear * - ha hb
    positivity
  obtain ⟨q6, e6⟩ : ∃ q : ℝ, q =
      (27749044218840079557623780789059/630162677662802496000000000) * (31/20 - u) ^ 4 +
      (1122774853608938731441566390907/10502711294380041600000000) * (u - 149/100) * (31/20 - u) ^ 3 +
      (120083063525755137643647163033/1400361505917338880000000) * (u - 149/100) ^ 2 * (31/20 - u) ^ 2 +
      (34753269082528366302496177481/1260325355325604992000000) * (u - 149/100) ^ 3 * (31/20 - u) +
      (519606491747126659843546171/112028920473387110400000) * (u - 149/100) ^ 4 := ⟨_, rfl⟩
  have h6 : 0 ≤ q6 := by
    rw [e6]
    generalize u - 149/100 = a at *
    generalize 31/20 - u = b at *
    clear * - ha hb
    positivity
  have key : fluctNum u z - 1/10000 =
      q0 * (321/500 - z) ^ 6 + q1 * z * (321/500 - z) ^ 5 + q2 * z ^ 2 * (321/500 - z) ^ 4 + q3 * z ^ 3 * (321/500 - z) ^ 3 + q4 * z ^ 4 * (321/500 - z) ^ 2 + q5 * z ^ 5 * (321/500 - z) + q6 * z ^ 6 := by
    rw [e0, e1, e2, e3, e4, e5, e6]
    simp only [fluctNum, fluctEta]
    ring
  refine sub_nonneg.1 ?_
  rw [key]
  clear key e0 e1 e2 e3 e4 e5 e6
  positivity

/-- Rectangle 4. -/
private theorem second_3 (u z : ℝ) (hu0 : 31/20 ≤ u) (hu1 : u ≤ 1623/1000) (hz0 : 0 ≤ z) (hz1 : z ≤ 321/500) :
    1/10000 ≤ fluctNum u z := by
  have ha : 0 ≤ u - 31/20 := by linarith
  have hb : 0 ≤ 1623/1000 - u := by linarith
  have hd : 0 ≤ 321/500 - z := by linarith
  obtain ⟨q0, e0⟩ : ∃ q : ℝ, q =
      (1735937500000000000000000000/3452066278833638506329) * (1623/1000 - u) ^ 4 +
      (6943750000000000000000000000/3452066278833638506329) * (u - 31/20) * (1623/1000 - u) ^ 3 +
      (3471875000000000000000000000/1150688759611212835443) * (u - 31/20) ^ 2 * (1623/1000 - u) ^ 2 +
      (6943750000000000000000000000/3452066278833638506329) * (u - 31/20) ^ 3 * (1623/1000 - u) +
      (1735937500000000000000000000/3452066278833638506329) * (u - 31/20) ^ 4 := ⟨_, rfl⟩
  have h0 : 0 ≤ q0 := by
    rw [e0]
    generalize u - 31/20 = a at *
    generalize 1623/1000 - u = b at *
    clear * - ha hb
    positivity
  obtain ⟨q1, e1⟩ : ∃ q : ℝ, q =
      (11003462586406250000000000000/3452066278833638506329) * (1623/1000 - u) ^ 4 +
      (131863302894043750000000000000/10356198836500915518987) * (u - 31/20) * (1623/1000 - u) ^ 3 +
      (197532026752290687500000000000/10356198836500915518987) * (u - 31/20) ^ 2 * (1623/1000 - u) ^ 2 +
      (131515695859325125000000000000/10356198836500915518987) * (u - 31/20) ^ 3 * (1623/1000 - u) +
      (10945528080619812500000000000/3452066278833638506329) * (u - 31/20) ^ 4 := ⟨_, rfl⟩
  have h1 : 0 ≤ q1 := by
    rw [e1]
    generalize u - 31/20 = a at *
    generalize 1623/1000 - u = b at *
    clear * - ha hb
    positivity
  obtain ⟨q2, e2⟩ : ∃ q : ℝ, q =
      (27658670574251059849780468750/3452066278833638506329) * (1623/1000 - u) ^ 4 +
      (330433907641210774036076937500/10356198836500915518987) * (u - 31/20) * (1623/1000 - u) ^ 3 +
      (493430178844781702627770511875/10356198836500915518987) * (u - 31/20) ^ 2 * (1623/1000 - u) ^ 2 +
      (327462833768221104383544061475/10356198836500915518987) * (u - 31/20) ^ 3 * (1623/1000 - u) +
      (217308130521189920016339197999/27616530230669108050632) * (u - 31/20) ^ 4 := ⟨_, rfl⟩
  have h2 : 0 ≤ q2 := by
    rw [e2]
    generalize u - 31/20 = a at *
    generalize 1623/1000 - u = b at *
    clear * - ha hb
    positivity
  obtain ⟨q3, e3⟩ : ∃ q : ℝ, q =
      (34437261070197788345206459375/3452066278833638506329) * (1623/1000 - u) ^ 4 +
      (410054066788230492513969727000/10356198836500915518987) * (u - 31/20) * (1623/1000 - u) ^ 3 +
      (1220829536687779187812721950585/20712397673001831037974) * (u - 31/20) ^ 2 * (1623/1000 - u) ^ 2 +
      (2019573706008969269907403115381/51780994182504577594935) * (u - 31/20) ^ 3 * (1623/1000 - u) +
      (66828176673977612671574792041607/6904132557667277012658000) * (u - 31/20) ^ 4 := ⟨_, rfl⟩
  have h3 : 0 ≤ q3 := by
    rw [e3]
    generalize u - 31/20 = a at *
    generalize 1623/1000 - u = b at *
    clear * - ha hb
    positivity
  obtain ⟨q4, e4⟩ : ∃ q : ℝ, q =
      (686065359917575423540261209325/110466120922676432202528) * (1623/1000 - u) ^ 4 +
      (4070750098823607502539229969027/165699181384014648303792) * (u - 31/20) * (1623/1000 - u) ^ 3 +
      (604515331984553010937395852995573/16569918138401464830379200) * (u - 31/20) ^ 2 * (1623/1000 - u) ^ 2 +
      (9986223097614826937144868440384203/414247953460036620759480000) * (u - 31/20) ^ 3 * (1623/1000 - u) +
      (165164426958083550342367404225060133/27616530230669108050632000000) * (u - 31/20) ^ 4 := ⟨_, rfl⟩
  have h4 : 0 ≤ q4 := by
    rw [e4]
    generalize u - 31/20 = a at *
    generalize 1623/1000 - u = b at *
    clear * - ha hb
    positivity
  obtain ⟨q5, e5⟩ : ∃ q : ℝ, q =
      (87211129426882124944478063839/55233060461338216101264) * (1623/1000 - u) ^ 4 +
      (12865751239813374508436717337361/2071239767300183103797400) * (u - 31/20) * (1623/1000 - u) ^ 3 +
      (1908068457590505077012235819787439/207123976730018310379740000) * (u - 31/20) ^ 2 * (1623/1000 - u) ^ 2 +
      (31620155432132040203211569230773529/5178099418250457759493500000) * (u - 31/20) ^ 3 * (1623/1000 - u) +
      (527121018883445957007053093875333519/345206627883363850632900000000) * (u - 31/20) ^ 4 := ⟨_, rfl⟩
  have h5 : 0 ≤ q5 := by
    rw [e5]
    generalize u - 31/20 = a at *
    generalize 1623/1000 - u = b at *
    clear * - ha hb
    positivity
  obtain ⟨q6, e6⟩ : ∃ q : ℝ, q =
      (519606491747126659843546171/245480268717058738227840) * (1623/1000 - u) ^ 4 +
      (286428105040991159540701438661/82849590692007324151896000) * (u - 31/20) * (1623/1000 - u) ^ 3 +
      (153404967169856521385860793253139/8284959069200732415189600000) * (u - 31/20) ^ 2 * (1623/1000 - u) ^ 2 +
      (7348517360983625258512097493823229/207123976730018310379740000000) * (u - 31/20) ^ 3 * (1623/1000 - u) +
      (83997726648887123224545108809799073/4602755038444851341772000000000) * (u - 31/20) ^ 4 := ⟨_, rfl⟩
  have h6 : 0 ≤ q6 := by
    rw [e6]
    generalize u - 31/20 = a at *
    generalize 1623/1000 - u = b at *
    clear * - ha hb
    positivity
  have key : fluctNum u z - 1/10000 =
      q0 * (321/500 - z) ^ 6 + q1 * z * (321/500 - z) ^ 5 + q2 * z ^ 2 * (321/500 - z) ^ 4 + q3 * z ^ 3 * (321/500 - z) ^ 3 + q4 * z ^ 4 * (321/500 - z) ^ 2 + q5 * z ^ 5 * (321/500 - z) + q6 * z ^ 6 := by
    rw [e0, e1, e2, e3, e4, e5, e6]
    simp only [fluctNum, fluctEta]
    ring
  refine sub_nonneg.1 ?_
  rw [key]
  clear key e0 e1 e2 e3 e4 e5 e6
  positivity

/-- At the largest packing fraction. -/
private theorem second_neg (u : ℝ) (hu0 : 1491/1000 ≤ u) (hu1 : u ≤ 811/500) :
    1/10000 ≤ -fluctNum u (13/20) := by
  have key : -fluctNum u (13/20) - 1/10000 =
      (5189247500907770938822283/2877556480000000000000000) * (811/500 - u) ^ 4 +
      (170081726191146097919503943/359694560000000000000000) * (u - 1491/1000) * (811/500 - u) ^ 3 +
      (344688008495214737322866409/359694560000000000000000) * (u - 1491/1000) ^ 2 * (811/500 - u) ^ 2 +
      (43495227732799799709640863/89923640000000000000000) * (u - 1491/1000) ^ 3 * (811/500 - u) +
      (94214512788921349304123/179847280000000000000000) * (u - 1491/1000) ^ 4 := by
    simp only [fluctNum, fluctEta]
    ring
  have ha : 0 ≤ u - 1491/1000 := by linarith
  have hb : 0 ≤ 811/500 - u := by linarith
  refine sub_nonneg.1 ?_
  rw [key]
  clear key
  generalize u - 1491/1000 = a at *
  generalize 811/500 - u = b at *
  positivity

/-- From 0.642 on it falls, for ranges between 1.49 and 1.623. -/
private theorem second_fall (u z : ℝ) (hu0 : 149/100 ≤ u) (hu1 : u ≤ 1623/1000) (hz0 : 321/500 ≤ z) (hz1 : z ≤ 13/20) :
    fluctNum u (13/20) ≤ fluctNum u z := by
  have ha : 0 ≤ u - 149/100 := by linarith
  have hb : 0 ≤ 1623/1000 - u := by linarith
  have hc : 0 ≤ z - 321/500 := by linarith
  have hd : 0 ≤ 13/20 - z := by linarith
  obtain ⟨q0, e0⟩ : ∃ q : ℝ, q =
      (30965004783137966137349904022457/64082067660800000) * (1623/1000 - u) ^ 4 +
      (313572386294923776858352902913639/160205169152000000) * (u - 149/100) * (1623/1000 - u) ^ 3 +
      (9295657356660808473443485931956059/3204103383040000000) * (u - 149/100) ^ 2 * (1623/1000 - u) ^ 2 +
      (29787530636022825565288083332706231/16020516915200000000) * (u - 149/100) ^ 3 * (1623/1000 - u) +
      (277736098856112343525313658938394137/640820676608000000000) * (u - 149/100) ^ 4 := ⟨_, rfl⟩
  have h0 : 0 ≤ q0 := by
    rw [e0]
    generalize u - 149/100 = a at *
    generalize 1623/1000 - u = b at *
    clear * - ha hb
    positivity
  obtain ⟨q1, e1⟩ : ∃ q : ℝ, q =
      (31048754515719709146690984538911/12816413532160000) * (1623/1000 - u) ^ 4 +
      (314408797926950907406180415658497/32041033830400000) * (u - 149/100) * (1623/1000 - u) ^ 3 +
      (9319919539070691323588502062458157/640820676608000000) * (u - 149/100) ^ 2 * (1623/1000 - u) ^ 2 +
      (29862772263642882375905053984622513/3204103383040000000) * (u - 149/100) ^ 3 * (1623/1000 - u) +
      (278406080284368821401665236156623551/128164135321600000000) * (u - 149/100) ^ 4 := ⟨_, rfl⟩
  have h1 : 0 ≤ q1 := by
    rw [e1]
    generalize u - 149/100 = a at *
    generalize 1623/1000 - u = b at *
    clear * - ha hb
    positivity
  obtain ⟨q2, e2⟩ : ∃ q : ℝ, q =
      (1245311679969959744008561786893/256328270643200) * (1623/1000 - u) ^ 4 +
      (12609922197221408510748196033811/640820676608000) * (u - 149/100) * (1623/1000 - u) ^ 3 +
      (373770490041838537944871515482391/12816413532160000) * (u - 149/100) ^ 2 * (1623/1000 - u) ^ 2 +
      (1197530117366898202810300875494819/64082067660800000) * (u - 149/100) ^ 3 * (1623/1000 - u) +
      (11163122441136210183946771325919213/2563282706432000000) * (u - 149/100) ^ 4 := ⟨_, rfl⟩
  have h2 : 0 ≤ q2 := by
    rw [e2]
    generalize u - 149/100 = a at *
    generalize 1623/1000 - u = b at *
    clear * - ha hb
    positivity
  obtain ⟨q3, e3⟩ : ∃ q : ℝ, q =
      (49947390365585762353453820491/10253130825728) * (1623/1000 - u) ^ 4 +
      (505744278696561547348989203157/25632827064320) * (u - 149/100) * (1623/1000 - u) ^ 3 +
      (14989897529010599871590174277617/512656541286400) * (u - 149/100) ^ 2 * (1623/1000 - u) ^ 2 +
      (48022358345712551595501050915653/2563282706432000) * (u - 149/100) ^ 3 * (1623/1000 - u) +
      (447603282680399628459535129524331/102531308257280000) * (u - 149/100) ^ 4 := ⟨_, rfl⟩
  have h3 : 0 ≤ q3 := by
    rw [e3]
    generalize u - 149/100 = a at *
    generalize 1623/1000 - u = b at *
    clear * - ha hb
    positivity
  obtain ⟨q4, e4⟩ : ∃ q : ℝ, q =
      (50082779541172275380227272225/20506261651456) * (1623/1000 - u) ^ 4 +
      (101419255267351954535710430515/10253130825728) * (u - 149/100) * (1623/1000 - u) ^ 3 +
      (601164231647348887550359794443/41012523302912) * (u - 149/100) ^ 2 * (1623/1000 - u) ^ 2 +
      (1925755947989182269606244110887/205062616514560) * (u - 149/100) ^ 3 * (1623/1000 - u) +
      (17947396024409339161664435598249/8202504660582400) * (u - 149/100) ^ 4 := ⟨_, rfl⟩
  have h4 : 0 ≤ q4 := by
    rw [e4]
    generalize u - 149/100 = a at *
    generalize 1623/1000 - u = b at *
    clear * - ha hb
    positivity
  obtain ⟨q5, e5⟩ : ∃ q : ℝ, q =
      (10043727513086511647402926875/20506261651456) * (1623/1000 - u) ^ 4 +
      (20338116330585470867965642625/10253130825728) * (u - 149/100) * (1623/1000 - u) ^ 3 +
      (120547561125433630741182278025/41012523302912) * (u - 149/100) ^ 2 * (1623/1000 - u) ^ 2 +
      (77225324634990705753364361945/41012523302912) * (u - 149/100) ^ 3 * (1623/1000 - u) +
      (143926325951071852333153386603/328100186423296) * (u - 149/100) ^ 4 := ⟨_, rfl⟩
  have h5 : 0 ≤ q5 := by
    rw [e5]
    generalize u - 149/100 = a at *
    generalize 1623/1000 - u = b at *
    clear * - ha hb
    positivity
  have key : fluctNum u z - fluctNum u (13/20) =
      q0 * (13/20 - z) ^ 6 + q1 * (z - 321/500) * (13/20 - z) ^ 5 + q2 * (z - 321/500) ^ 2 * (13/20 - z) ^ 4 + q3 * (z - 321/500) ^ 3 * (13/20 - z) ^ 3 + q4 * (z - 321/500) ^ 4 * (13/20 - z) ^ 2 + q5 * (z - 321/500) ^ 5 * (13/20 - z) := by
    rw [e0, e1, e2, e3, e4, e5]
    simp only [fluctNum, fluctEta]
    ring
  refine sub_nonneg.1 ?_
  rw [key]
  clear key e0 e1 e2 e3 e4 e5
  positivity

/-! ## The derivative -/

/-- The derivative of the packing fraction times the contact value, as in `Asecond_order`. -/
noncomputable def fluctuationSW (lam z : ℝ) : ℝ :=
  g0HS lam z + z * dzetaEff lam z * (2.5 - zetaEff lam z) / (1 - zetaEff lam z) ^ 4

private theorem fluct_eq (u z : ℝ) (h1 : 1 ≤ u) (he : zetaEff u z ≠ 1) :
    fluctuationSW u z = fluctNum u z / (1 - zetaEff u z) ^ 4 := by
  have h : u ≠ 0 := by linarith
  have hz : zetaEff u z = fluctEta u z := by
    simp only [zetaEff, if_pos h, cikl, cklCoef, fluctEta, Matrix.cons_val]
    ring
  have hd : 1 - zetaEff u z ≠ 0 := sub_ne_zero.2 he.symm
  have e : z * dzetaEff u z = z * (2.25855 - 1.50349 * u + 0.249434 * u ^ 2)
      + 2 * z ^ 2 * (-0.669270 + 1.40049 * u - 0.827739 * u ^ 2) + 3 * z ^ 3 * (10.1576 - 15.0427 * u + 5.30827 * u ^ 2) := by
    simp only [dzetaEff, if_pos h, cikl, cklCoef, Matrix.cons_val]
    ring
  rw [fluctuationSW, e, g0HS, fluctNum, ← hz]
  generalize z * (2.25855 - 1.50349 * u + 0.249434 * u ^ 2)
      + 2 * z ^ 2 * (-0.669270 + 1.40049 * u - 0.827739 * u ^ 2) + 3 * z ^ 3 * (10.1576 - 15.0427 * u + 5.30827 * u ^ 2) = D
  generalize zetaEff u z = η at *
  field_simp

private theorem fluct_pos (u z : ℝ) (h1 : 1 ≤ u) (hl : u ≤ 2.682) (hz : 0 ≤ z) (hz1 : z ≤ 0.65) (h : 1/10000 ≤ fluctNum u z) :
    0 < fluctuationSW u z := by
  have he := c151_below_partial u z h1 (hl.trans (by norm_num)) hz hz1
  rw [fluct_eq u z h1 he.ne]
  exact div_pos (by linarith) (pow_pos (by linarith) 4)

/-- **C153** (packing fractions up to 0.642): for all ranges up to 2.682 the derivative is positive. -/
theorem c153_derivative_partial (lam z : ℝ) (h1 : 1 ≤ lam) (hl : lam ≤ 2.682) (hz : 0 ≤ z) (hz1 : z ≤ 0.642) :
    0 < fluctuationSW lam z := by
  have hl' : lam ≤ 1341/500 := by norm_num at hl ⊢; exact hl
  have hz' : z ≤ 321/500 := by norm_num at hz1 ⊢; exact hz1
  refine fluct_pos lam z h1 hl hz (by linarith) ?_
  rcases le_total lam (149/100) with h | h
  · exact second_0 lam z h1 h hz (by linarith)
  · rcases le_total (1623/1000) lam with h' | h'
    · exact second_1 lam z h' hl' hz (by linarith)
    · rcases le_total lam (31/20) with ha | ha
      · exact second_2 lam z h ha hz hz'
      · exact second_3 lam z ha h' hz hz'

/-- **C153** (ranges up to 1.49 and from 1.623 to 2.682): the derivative is positive at every packing fraction that `Amonomer`
accepts. -/
theorem c153_ranges_partial (lam z : ℝ) (h1 : 1 ≤ lam) (hl : lam ≤ 2.682) (ho : lam ≤ 1.49 ∨ 1.623 ≤ lam) (hz : 0 ≤ z)
    (hz1 : z ≤ 0.65) : 0 < fluctuationSW lam z := by
  have hl' : lam ≤ 1341/500 := by norm_num at hl ⊢; exact hl
  have hz' : z ≤ 13/20 := by norm_num at hz1 ⊢; exact hz1
  refine fluct_pos lam z h1 hl hz hz1 ?_
  rcases ho with h | h
  · exact second_0 lam z h1 (by norm_num at h ⊢; exact h) hz hz'
  · exact second_1 lam z (by norm_num at h ⊢; exact h) hl' hz hz'

/-- **C153, violated**: for ranges between 1.491 and 1.622 the derivative is negative at the largest accepted packing fraction. -/
theorem c153_violated_derivative (lam : ℝ) (h1 : 1.491 ≤ lam) (hl : lam ≤ 1.622) : fluctuationSW lam 0.65 < 0 := by
  have he := c151_below_partial lam 0.65 (by linarith) (by linarith) (by norm_num) (by norm_num)
  rw [fluct_eq lam _ (by linarith) he.ne]
  have h := second_neg lam (by norm_num at h1 ⊢; exact h1) (by norm_num at hl ⊢; exact hl)
  rw [show (0.65 : ℝ) = 13 / 20 by norm_num] at *
  exact div_neg_of_neg_of_pos (by linarith) (pow_pos (by linarith) 4)

/-- **C153** (exactly): for ranges up to 2.682 the derivative is positive at every packing fraction that `Amonomer` accepts if and
only if it is at the largest, 0.65; so it is up to 1.49 and from 1.623 on, and not from 1.491 to 1.622. -/
theorem c153_exact (lam : ℝ) (h1 : 1 ≤ lam) (hl : lam ≤ 2.682) :
    (∀ z, 0 ≤ z → z ≤ 0.65 → 0 < fluctuationSW lam z) ↔ 0 < fluctuationSW lam 0.65 := by
  refine ⟨fun h => h _ (by norm_num) le_rfl, fun h z hz hz1 => ?_⟩
  by_cases ho : lam ≤ 1.49 ∨ 1.623 ≤ lam
  · exact c153_ranges_partial lam z h1 hl ho hz hz1
  by_cases hs : z ≤ 0.642
  · exact c153_derivative_partial lam z h1 hl hz hs
  push Not at ho hs
  have he := c151_below_partial lam z h1 hl hz hz1
  have he' := c151_below_partial lam 0.65 h1 hl (by norm_num) le_rfl
  rw [fluct_eq lam _ h1 he'.ne] at h
  rw [fluct_eq lam z h1 he.ne]
  have hn : 0 < fluctNum lam 0.65 := (div_pos_iff_of_pos_right (pow_pos (by linarith) 4)).1 h
  have hf := second_fall lam z (by norm_num at ho ⊢; exact ho.1.le) (by norm_num at ho ⊢; exact ho.2.le)
    (by norm_num at hs ⊢; exact hs.le) (by norm_num at hz1 ⊢; exact hz1)
  rw [show (0.65 : ℝ) = 13 / 20 by norm_num] at hn
  exact div_pos (by linarith) (pow_pos (by linarith) 4)

/-- Neither side is empty: a range of 1.4 has it, one of 1.55 does not. -/
example : (∀ z, 0 ≤ z → z ≤ 0.65 → 0 < fluctuationSW 1.4 z) ∧ ¬∀ z, 0 ≤ z → z ≤ 0.65 → 0 < fluctuationSW 1.55 z :=
  ⟨(c153_exact _ (by norm_num) (by norm_num)).2 (c153_ranges_partial _ _ (by norm_num) (by norm_num) (Or.inl (by norm_num))
    (by norm_num) le_rfl), fun h => lt_asymm (c153_violated_derivative 1.55 (by norm_num) (by norm_num))
      ((c153_exact _ (by norm_num) (by norm_num)).1 h)⟩

/-! ## The energy -/

variable {n m : ℕ}

private theorem khs_pos {z : ℝ} (h0 : 0 ≤ z) (h1 : z < 1) : 0 < khs z := by
  unfold khs
  refine div_pos (pow_pos (by linarith) 4) ?_
  nlinarith [mul_nonneg h0 (sub_nonneg.2 h1.le), mul_nonneg (mul_nonneg h0 h0) (sub_nonneg.2 h1.le), pow_nonneg h0 4]

private theorem asecond_form (M ρ T C : ℝ) (w σ lam α ε : Fin m → Fin m → ℝ) :
    asecond M ρ T C w σ lam α ε = -(C ^ 2 * ρ * M * khs (packing M ρ C w σ) / (2 * T ^ 2)) *
      ∑ k, ∑ l, ε k l * α k l * w k l * fluctuationSW (lam k l) (packing M ρ C w σ) := by
  unfold asecond fluctuationSW
  simp only [Finset.mul_sum]
  refine Finset.sum_congr rfl fun k _ => Finset.sum_congr rfl fun l _ => ?_
  ring

/-- **C153** (energy): where the derivative is positive for every pair of groups, the second-order term is not positive, and
it is negative as soon as one pair attracts. -/
theorem c153_energy (M ρ T C : ℝ) (w σ lam α ε : Fin m → Fin m → ℝ) (hT : T ≠ 0) (hM : 0 < M) (hρ : 0 ≤ ρ) (hC : 0 < C)
    (hw : ∀ k l, 0 ≤ w k l) (hα : ∀ k l, 0 ≤ α k l) (hε : ∀ k l, 0 ≤ ε k l) (hz : 0 ≤ packing M ρ C w σ)
    (hz1 : packing M ρ C w σ < 1) (hd : ∀ k l, 0 < fluctuationSW (lam k l) (packing M ρ C w σ)) :
    asecond M ρ T C w σ lam α ε ≤ 0 ∧
      (0 < ρ → (∃ k l, 0 < ε k l * α k l * w k l) → asecond M ρ T C w σ lam α ε < 0) := by
  have hk := khs_pos hz hz1
  have hT2 : 0 < T ^ 2 := by positivity
  have nn : ∀ k l, 0 ≤ ε k l * α k l * w k l * fluctuationSW (lam k l) (packing M ρ C w σ) := fun k l =>
    mul_nonneg (mul_nonneg (mul_nonneg (hε k l) (hα k l)) (hw k l)) (hd k l).le
  have hs : 0 ≤ ∑ k, ∑ l, ε k l * α k l * w k l * fluctuationSW (lam k l) (packing M ρ C w σ) :=
    Finset.sum_nonneg fun k _ => Finset.sum_nonneg fun l _ => nn k l
  rw [asecond_form]
  constructor
  · have : 0 ≤ C ^ 2 * ρ * M * khs (packing M ρ C w σ) / (2 * T ^ 2) := by positivity
    have := mul_nonneg this hs
    linarith
  · rintro hρ' ⟨k, l, hkl⟩
    have h1 : 0 < ∑ k, ∑ l, ε k l * α k l * w k l * fluctuationSW (lam k l) (packing M ρ C w σ) :=
      Finset.sum_pos' (fun k _ => Finset.sum_nonneg fun l _ => nn k l) ⟨k, Finset.mem_univ k,
        Finset.sum_pos' (fun l _ => nn k l) ⟨l, Finset.mem_univ l, mul_pos hkl (hd k l)⟩⟩
    have h2 : 0 < C ^ 2 * ρ * M * khs (packing M ρ C w σ) / (2 * T ^ 2) := by positivity
    have := mul_pos h2 h1
    linarith

/-- **C153** (states): at a packing fraction up to 0.642, with ranges up to 2.682, the second-order term of every mixture is
not positive. -/
theorem c153_states_partial (M ρ T : ℝ) (P : SWell n m) (x : Fin n → ℝ) (hT : T ≠ 0) (hM : 0 < M) (hρ : 0 ≤ ρ)
    (hC : 0 < cmol2seg P.g x) (hx : ∀ i, 0 ≤ x i) (hν : ∀ i k, 0 ≤ P.g.ν i k) (hV : ∀ k, 0 ≤ P.g.V k) (hS : ∀ k, 0 ≤ P.g.S k)
    (hσ : ∀ k l, 0 ≤ P.σ k l) (hε : ∀ k l, 0 ≤ P.ε k l) (h1 : ∀ k l, 1 ≤ P.lam k l) (hl : ∀ k l, P.lam k l ≤ 2.682)
    (hz1 : packing M ρ (cmol2seg P.g x) (xskl P.g x) P.σ ≤ 0.642) : a2 M P ρ T x ≤ 0 := by
  have hpi := Real.pi_pos
  have hz : 0 ≤ packing M ρ (cmol2seg P.g x) (xskl P.g x) P.σ := by
    have : 0 ≤ ∑ k, √(xskl P.g x k k) * P.σ k k ^ 3 :=
      Finset.sum_nonneg fun k _ => mul_nonneg (Real.sqrt_nonneg _) (pow_nonneg (hσ k k) 3)
    unfold packing moment
    positivity
  refine (c153_energy M ρ T _ _ P.σ P.lam (alphakl P) P.ε hT hM hρ hC (c17_xskl P.g x hx hν hV hS hC.ne').2.1 ?_ hε hz
    (by linarith) fun k l => c153_derivative_partial _ _ (h1 k l) (hl k l) hz hz1).1
  intro k l
  unfold alphakl alpha
  have : 0 ≤ P.lam k l ^ 3 - 1 := by nlinarith [h1 k l, sq_nonneg (P.lam k l)]
  have := hε k l
  have := hσ k l
  positivity

/-- **C155** (square well): under the same conditions the attraction does not raise the energy of the monomers above that of
hard spheres. -/
theorem c155_sw_partial (M ρ T : ℝ) (P : SWell n m) (x : Fin n → ℝ) (hT : 0 < T) (hM : 0 < M) (hρ : 0 ≤ ρ)
    (hC : 0 < cmol2seg P.g x) (hx : ∀ i, 0 ≤ x i) (hν : ∀ i k, 0 ≤ P.g.ν i k) (hV : ∀ k, 0 ≤ P.g.V k) (hS : ∀ k, 0 ≤ P.g.S k)
    (hσ : ∀ k l, 0 ≤ P.σ k l) (hε : ∀ k l, 0 ≤ P.ε k l) (h1 : ∀ k l, 1 ≤ P.lam k l) (hl : ∀ k l, P.lam k l ≤ 2.682)
    (hz1 : packing M ρ (cmol2seg P.g x) (xskl P.g x) P.σ ≤ 0.642) :
    a1 M P ρ T x ≤ 0 ∧ amono M P ρ T x ≤ SWTerms.ahs M P ρ x := by
  have hpi := Real.pi_pos
  have hz : 0 ≤ packing M ρ (cmol2seg P.g x) (xskl P.g x) P.σ := by
    have : 0 ≤ ∑ k, √(xskl P.g x k k) * P.σ k k ^ 3 :=
      Finset.sum_nonneg fun k _ => mul_nonneg (Real.sqrt_nonneg _) (pow_nonneg (hσ k k) 3)
    unfold packing moment
    positivity
  have a : a1 M P ρ T x ≤ 0 := by
    refine c151_attraction_partial M ρ T _ _ P.σ P.lam (alphakl P) hT hM.le hρ (c17_xskl P.g x hx hν hV hS hC.ne').2.1 ?_ h1 (fun k l => (hl k l).trans (by norm_num)) hz
      (by linarith)
    intro k l
    unfold alphakl alpha
    have : 0 ≤ P.lam k l ^ 3 - 1 := by nlinarith [h1 k l, sq_nonneg (P.lam k l)]
    have := hε k l
    have := hσ k l
    positivity
  refine ⟨a, ?_⟩
  have b := c153_states_partial M ρ T P x hT.ne' hM hρ hC hx hν hV hS hσ hε h1 hl hz1
  unfold amono
  linarith

/-- **C153, violated** (state): in a fluid of groups of one diameter and one range between 1.491 and 1.622, `Amonomer` accepts
a density at which the second-order term is positive. -/
theorem c153_violated_state (M T σ₀ lam : ℝ) (P : SWell n m) (x : Fin n → ℝ) (hx : ∀ i, 0 ≤ x i) (hν : ∀ i k, 0 ≤ P.g.ν i k)
    (hV : ∀ k, 0 ≤ P.g.V k) (hS : ∀ k, 0 ≤ P.g.S k) (hM : 0 < M) (hT : T ≠ 0) (hC : 0 < cmol2seg P.g x) (hσ : 0 < σ₀)
    (hPσ : P.σ = fun _ _ => σ₀) (hPl : P.lam = fun _ _ => lam) (h1 : 1.491 ≤ lam) (hl : lam ≤ 1.622)
    (hα : 0 < ∑ k, ∑ l, P.ε k l * alphakl P k l * xskl P.g x k l) :
    ∃ ρ > 0, amonomer M P [ρ] T x = .ok [amono M P ρ T x] ∧ 0 < a2 M P ρ T x := by
  classical
  have hpi := Real.pi_pos
  have hsum : (∑ k : Fin m, ∑ l : Fin m, xskl P.g x k l * σ₀ ^ 3) = σ₀ ^ 3 := by
    have := (c17_xskl P.g x hx hν hV hS hC.ne').2.2
    rw [Finset.sum_congr rfl fun k _ => (Finset.sum_mul _ _ _).symm, ← Finset.sum_mul, this, one_mul]
  have hpack := c57_sw_equal_diameters_partial M 0.65 σ₀ P.g x hx hν hV hS hM.ne' hC.ne' hσ.ne'
  have hρ0 : 0 < densityMax M (cmol2seg P.g x) (xskl P.g x) (fun _ _ => σ₀) 0.65 := by
    unfold densityMax; rw [hsum]; positivity
  rw [← hPσ] at hpack hρ0
  refine ⟨_, hρ0, ?_, ?_⟩
  · rw [c125_single, if_neg]
    rintro (h | h)
    · exact lt_irrefl _ h
    · linarith
  · unfold a2
    rw [asecond_form, hpack, hPl]
    rw [Finset.sum_congr rfl fun k _ => (Finset.sum_mul _ _ _).symm, ← Finset.sum_mul]
    have hf := c153_violated_derivative lam h1 hl
    have hk : 0 < khs 0.65 := khs_pos (by norm_num) (by norm_num)
    have hT2 : 0 < T ^ 2 := by positivity
    have : 0 < cmol2seg P.g x ^ 2 * densityMax M (cmol2seg P.g x) (xskl P.g x) P.σ 0.65 * M * khs 0.65 / (2 * T ^ 2) := by
      positivity
    have := mul_pos this (mul_pos hα (neg_pos.2 hf))
    linarith

/-- The hypotheses are met by one component of one group with a well of range 1.55. -/
example : ∃ P : SWell 1 1, P.σ = (fun _ _ => 0.3) ∧ P.lam = (fun _ _ => 1.55) ∧ 0 < cmol2seg P.g (fun _ => 1) ∧
    0 < ∑ k, ∑ l, P.ε k l * alphakl P k l * xskl P.g (fun _ => 1) k l := by
  refine ⟨⟨⟨fun _ _ => 1, fun _ => 1, fun _ => 1⟩, fun _ _ => 100, fun _ _ => 0.3, fun _ _ => 1.55, fun _ => 0⟩, rfl, rfl, ?_, ?_⟩
  · simp [cmol2seg]
  · have := Real.pi_pos
    simp only [Finset.univ_unique, Finset.sum_singleton, xskl, xsk, cmol2seg, alphakl, alpha]
    norm_num
    positivity

/-- A mixture of wells of ranges 1.2 and 1.8 at a packing fraction of 0.5. -/
example : 0 < fluctuationSW 1.2 0.5 ∧ 0 < fluctuationSW 1.8 0.5 :=
  ⟨c153_derivative_partial _ _ (by norm_num) (by norm_num) (by norm_num) (by norm_num),
    c153_derivative_partial _ _ (by norm_num) (by norm_num) (by norm_num) (by norm_num)⟩

end Verif.Props
