import Verif.Props.MieLimits
import Verif.Props.SaftToolbox

/-!
# C153: the second-order term of the Mie fluid

The second-order term is minus a variance of the attractive energy times a positive correction.  In the code both factors,
the bracket of `a2NoChi` and the correction `1 + χ`, can change sign below close packing.

As in C150, inequalities in two variables are shown by writing polynomials with positive coefficients in the distances from
the sides of a rectangle.
-/

namespace Verif.Props
open Verif Verif.Saft Verif.GammaMie Verif.MieTerms

/-! ## The correction -/

private noncomputable def chiDen0 (u : ℝ) : ℝ := 1 - 2.467982 * u - 0.50272 * u ^ 2 + 8.0956883 * u ^ 3
private noncomputable def chiDen1 (u : ℝ) : ℝ := 1 - 0.82376 * u - 3.1935 * u ^ 2 + 3.709 * u ^ 3
private noncomputable def chiDen2 (u : ℝ) : ℝ := 1 - 2.7171 * u + 2.0883 * u ^ 2

/-- The correction times the three denominators. -/
private noncomputable def chiNum (u z : ℝ) : ℝ :=
  chiDen0 u * chiDen1 u * chiDen2 u
    + z * ((7.5365557 - 37.60463 * u + 71.745953 * u ^ 2 - 46.83552 * u ^ 3) * chiDen1 u * chiDen2 u)
    + z ^ 5 * (chiDen0 u * (-359.44 + 1825.6 * u - 3168 * u ^ 2 + 1884.2 * u ^ 3) * chiDen2 u)
    + z ^ 8 * (chiDen0 u * chiDen1 u * (1550.9 - 5070.1 * u + 6534.6 * u ^ 2 - 3288.7 * u ^ 3))

/-- Rectangle 1. -/
private theorem chi_0 (u z : ℝ) (hu0 : 1/10 ≤ u) (hu1 : u ≤ 11/20) (hz0 : 0 ≤ z) (hz1 : z ≤ 13/40) :
    1/100000 ≤ chiNum u z := by
  have ha : 0 ≤ u - 1/10 := by linarith
  have hb : 0 ≤ 11/20 - u := by linarith
  have hd : 0 ≤ 13/40 - z := by linarith
  obtain ⟨q0, e0⟩ : ∃ q : ℝ, q =
      (5283802778665989830692831232/987596233819195528125) * (11/20 - u) ^ 9 +
      (3259091990742900973184221184/109732914868799503125) * (u - 1/10) * (11/20 - u) ^ 8 +
      (7525478367236448439100506112/109732914868799503125) * (u - 1/10) ^ 2 * (11/20 - u) ^ 7 +
      (30680018969316539389015359488/329198744606398509375) * (u - 1/10) ^ 3 * (11/20 - u) ^ 6 +
      (1999945258328581068759302144/21946582973759900625) * (u - 1/10) ^ 4 * (11/20 - u) ^ 5 +
      (7385757901617488579224305664/109732914868799503125) * (u - 1/10) ^ 5 * (11/20 - u) ^ 4 +
      (11515108385458542116447338496/329198744606398509375) * (u - 1/10) ^ 6 * (11/20 - u) ^ 3 +
      (1324611509802323390906310656/109732914868799503125) * (u - 1/10) ^ 7 * (11/20 - u) ^ 2 +
      (271983296109543643023331328/109732914868799503125) * (u - 1/10) ^ 8 * (11/20 - u) +
      (47722000505531671287672832/197519246763839105625) * (u - 1/10) ^ 9 := ⟨_, rfl⟩
  have h0 : 0 ≤ q0 := by
    rw [e0]
    generalize u - 1/10 = a at *
    generalize 11/20 - u = b at *
    clear * - ha hb
    positivity
  obtain ⟨q1, e1⟩ : ∃ q : ℝ, q =
      (52367623245589485522267406336/987596233819195528125) * (11/20 - u) ^ 9 +
      (10351177686099079284769685504/36577638289599834375) * (u - 1/10) * (11/20 - u) ^ 8 +
      (69551441231055504169665560576/109732914868799503125) * (u - 1/10) ^ 2 * (11/20 - u) ^ 7 +
      (278074249819266501376043843584/329198744606398509375) * (u - 1/10) ^ 3 * (11/20 - u) ^ 6 +
      (5939970877023475735866179584/7315527657919966875) * (u - 1/10) ^ 4 * (11/20 - u) ^ 5 +
      (64551868593614015605291958272/109732914868799503125) * (u - 1/10) ^ 5 * (11/20 - u) ^ 4 +
      (98989852556361396923627388928/329198744606398509375) * (u - 1/10) ^ 6 * (11/20 - u) ^ 3 +
      (1247765775049925306779512832/12192546096533278125) * (u - 1/10) ^ 7 * (11/20 - u) ^ 2 +
      (2280434707245139144667439104/109732914868799503125) * (u - 1/10) ^ 8 * (11/20 - u) +
      (395948130700791070079922176/197519246763839105625) * (u - 1/10) ^ 9 := ⟨_, rfl⟩
  have h1 : 0 ≤ q1 := by
    rw [e1]
    generalize u - 1/10 = a at *
    generalize 11/20 - u = b at *
    clear * - ha hb
    positivity
  obtain ⟨q2, e2⟩ : ∃ q : ℝ, q =
      (218626884916478683396472569856/987596233819195528125) * (11/20 - u) ^ 9 +
      (126120155667279437731005202432/109732914868799503125) * (u - 1/10) * (11/20 - u) ^ 8 +
      (92048898111589324297614917632/36577638289599834375) * (u - 1/10) ^ 2 * (11/20 - u) ^ 7 +
      (1087479217594002406739876839424/329198744606398509375) * (u - 1/10) ^ 3 * (11/20 - u) ^ 6 +
      (68740921184292720527929311232/21946582973759900625) * (u - 1/10) ^ 4 * (11/20 - u) ^ 5 +
      (9076365144815127000694931456/4064182032177759375) * (u - 1/10) ^ 5 * (11/20 - u) ^ 4 +
      (370505933101690599204866244608/329198744606398509375) * (u - 1/10) ^ 6 * (11/20 - u) ^ 3 +
      (41520121553680239381732610048/109732914868799503125) * (u - 1/10) ^ 7 * (11/20 - u) ^ 2 +
      (2782503553216250669339598848/36577638289599834375) * (u - 1/10) ^ 8 * (11/20 - u) +
      (1435420900750650694504615936/197519246763839105625) * (u - 1/10) ^ 9 := ⟨_, rfl⟩
  have h2 : 0 ≤ q2 := by
    rw [e2]
    generalize u - 1/10 = a at *
    generalize 11/20 - u = b at *
    clear * - ha hb
    positivity
  obtain ⟨q3, e3⟩ : ∃ q : ℝ, q =
      (507934176946788334930018435072/987596233819195528125) * (11/20 - u) ^ 9 +
      (287105891261037085943857414144/109732914868799503125) * (u - 1/10) * (11/20 - u) ^ 8 +
      (617726688721683362383720087552/109732914868799503125) * (u - 1/10) ^ 2 * (11/20 - u) ^ 7 +
      (2403397121641144117327200452608/329198744606398509375) * (u - 1/10) ^ 3 * (11/20 - u) ^ 6 +
      (150224296319677891658527473664/21946582973759900625) * (u - 1/10) ^ 4 * (11/20 - u) ^ 5 +
      (528384355484735606838008889344/109732914868799503125) * (u - 1/10) ^ 5 * (11/20 - u) ^ 4 +
      (789094764512232618354073255936/329198744606398509375) * (u - 1/10) ^ 6 * (11/20 - u) ^ 3 +
      (87471242386575663199821131776/109732914868799503125) * (u - 1/10) ^ 7 * (11/20 - u) ^ 2 +
      (17426999687879034019403112448/109732914868799503125) * (u - 1/10) ^ 8 * (11/20 - u) +
      (2970046688097065287459008512/197519246763839105625) * (u - 1/10) ^ 9 := ⟨_, rfl⟩
  have h3 : 0 ≤ q3 := by
    rw [e3]
    generalize u - 1/10 = a at *
    generalize 11/20 - u = b at *
    clear * - ha hb
    positivity
  obtain ⟨q4, e4⟩ : ∃ q : ℝ, q =
      (144653646015154825766772932608/197519246763839105625) * (11/20 - u) ^ 9 +
      (26830955932292941368808701952/7315527657919966875) * (u - 1/10) * (11/20 - u) ^ 8 +
      (170789997193457694745437667328/21946582973759900625) * (u - 1/10) ^ 2 * (11/20 - u) ^ 7 +
      (657958952023570855293661806592/65839748921279701875) * (u - 1/10) ^ 3 * (11/20 - u) ^ 6 +
      (4526854174188065062811009024/487701843861331125) * (u - 1/10) ^ 4 * (11/20 - u) ^ 5 +
      (141661248287363588909622870016/21946582973759900625) * (u - 1/10) ^ 5 * (11/20 - u) ^ 4 +
      (209294415705271009574603505664/65839748921279701875) * (u - 1/10) ^ 6 * (11/20 - u) ^ 3 +
      (7658520138815903969681420288/7315527657919966875) * (u - 1/10) ^ 7 * (11/20 - u) ^ 2 +
      (4539744514115141005692157952/21946582973759900625) * (u - 1/10) ^ 8 * (11/20 - u) +
      (767312893673207296477196288/39503849352767821125) * (u - 1/10) ^ 9 := ⟨_, rfl⟩
  have h4 : 0 ≤ q4 := by
    rw [e4]
    generalize u - 1/10 = a at *
    generalize 11/20 - u = b at *
    clear * - ha hb
    positivity
  obtain ⟨q5, e5⟩ : ∃ q : ℝ, q =
      (80605360639983147276064527955712/123449529227399441015625) * (11/20 - u) ^ 9 +
      (8877437307489298433568905199616/2743322871719987578125) * (u - 1/10) * (11/20 - u) ^ 8 +
      (93253205944041077156911163020928/13716614358599937890625) * (u - 1/10) ^ 2 * (11/20 - u) ^ 7 +
      (356544024578688405009274770760256/41149843075799813671875) * (u - 1/10) ^ 3 * (11/20 - u) ^ 6 +
      (109556499086518796136501153748096/13716614358599937890625) * (u - 1/10) ^ 4 * (11/20 - u) ^ 5 +
      (75476149064631432801164179771504/13716614358599937890625) * (u - 1/10) ^ 5 * (11/20 - u) ^ 4 +
      (4420368299514404286283160838536/1645993723031992546875) * (u - 1/10) ^ 6 * (11/20 - u) ^ 3 +
      (12030783092024376891153396653924/13716614358599937890625) * (u - 1/10) ^ 7 * (11/20 - u) ^ 2 +
      (2359887962078488240023209282201/13716614358599937890625) * (u - 1/10) ^ 8 * (11/20 - u) +
      (1980178054322790778938091214597/123449529227399441015625) * (u - 1/10) ^ 9 := ⟨_, rfl⟩
  have h5 : 0 ≤ q5 := by
    rw [e5]
    generalize u - 1/10 = a at *
    generalize 11/20 - u = b at *
    clear * - ha hb
    positivity
  obtain ⟨q6, e6⟩ : ∃ q : ℝ, q =
      (43328922622548167585459094267136/123449529227399441015625) * (11/20 - u) ^ 9 +
      (4765815976924278750007838670848/2743322871719987578125) * (u - 1/10) * (11/20 - u) ^ 8 +
      (49913796327264258889428759462784/13716614358599937890625) * (u - 1/10) ^ 2 * (11/20 - u) ^ 7 +
      (190073712093316819948885360600768/41149843075799813671875) * (u - 1/10) ^ 3 * (11/20 - u) ^ 6 +
      (58105882522612165373048139644288/13716614358599937890625) * (u - 1/10) ^ 4 * (11/20 - u) ^ 5 +
      (39786727418510125066343304114512/13716614358599937890625) * (u - 1/10) ^ 5 * (11/20 - u) ^ 4 +
      (2315555130191148180675899565208/1645993723031992546875) * (u - 1/10) ^ 6 * (11/20 - u) ^ 3 +
      (6265148935709694678065885961772/13716614358599937890625) * (u - 1/10) ^ 7 * (11/20 - u) ^ 2 +
      (1221988651446155962113050566603/13716614358599937890625) * (u - 1/10) ^ 8 * (11/20 - u) +
      (1020822469266121860769576043791/123449529227399441015625) * (u - 1/10) ^ 9 := ⟨_, rfl⟩
  have h6 : 0 ≤ q6 := by
    rw [e6]
    generalize u - 1/10 = a at *
    generalize 11/20 - u = b at *
    clear * - ha hb
    positivity
  obtain ⟨q7, e7⟩ : ∃ q : ℝ, q =
      (12449313897425450974458692347136/123449529227399441015625) * (11/20 - u) ^ 9 +
      (464330328409639246441125871616/914440957239995859375) * (u - 1/10) * (11/20 - u) ^ 8 +
      (14741775396136283642169848742784/13716614358599937890625) * (u - 1/10) ^ 2 * (11/20 - u) ^ 7 +
      (56263993056740645514485268440768/41149843075799813671875) * (u - 1/10) ^ 3 * (11/20 - u) ^ 6 +
      (5726166451546446253406932948096/4572204786199979296875) * (u - 1/10) ^ 4 * (11/20 - u) ^ 5 +
      (11757173248286716418161892274512/13716614358599937890625) * (u - 1/10) ^ 5 * (11/20 - u) ^ 4 +
      (683215308556779769587758048408/1645993723031992546875) * (u - 1/10) ^ 6 * (11/20 - u) ^ 3 +
      (205096704600010010190125711308/1524068262066659765625) * (u - 1/10) ^ 7 * (11/20 - u) ^ 2 +
      (359035819026914353713342406603/13716614358599937890625) * (u - 1/10) ^ 8 * (11/20 - u) +
      (300291354702271096611444843791/123449529227399441015625) * (u - 1/10) ^ 9 := ⟨_, rfl⟩
  have h7 : 0 ≤ q7 := by
    rw [e7]
    generalize u - 1/10 = a at *
    generalize 11/20 - u = b at *
    clear * - ha hb
    positivity
  obtain ⟨q8, e8⟩ : ∃ q : ℝ, q =
      (371868673780830805239725312936161/30862382306849860253906250) * (11/20 - u) ^ 9 +
      (58989019325605200848973402266693/914440957239995859375000) * (u - 1/10) * (11/20 - u) ^ 8 +
      (975956373043045452625566994108999/6858307179299968945312500) * (u - 1/10) ^ 2 * (11/20 - u) ^ 7 +
      (7596153446268404916439328737308883/41149843075799813671875000) * (u - 1/10) ^ 3 * (11/20 - u) ^ 6 +
      (26087579984141325482094514168103/152406826206665976562500) * (u - 1/10) ^ 4 * (11/20 - u) ^ 5 +
      (13066605196550441582530266277884929/109732914868799503125000000) * (u - 1/10) ^ 5 * (11/20 - u) ^ 4 +
      (771839005058957772414155652118259/13167949784255940375000000) * (u - 1/10) ^ 6 * (11/20 - u) ^ 3 +
      (1410780919306741894690836858550403/73155276579199668750000000) * (u - 1/10) ^ 7 * (11/20 - u) ^ 2 +
      (3320461568448875234779728947421167/877863318950396025000000000) * (u - 1/10) ^ 8 * (11/20 - u) +
      (2240901326341069153215146874616007/6320615896442851380000000000) * (u - 1/10) ^ 9 := ⟨_, rfl⟩
  have h8 : 0 ≤ q8 := by
    rw [e8]
    generalize u - 1/10 = a at *
    generalize 11/20 - u = b at *
    clear * - ha hb
    positivity
  have key : chiNum u z - 1/100000 =
      q0 * (13/40 - z) ^ 8 + q1 * z * (13/40 - z) ^ 7 + q2 * z ^ 2 * (13/40 - z) ^ 6 + q3 * z ^ 3 * (13/40 - z) ^ 5 + q4 * z ^ 4 * (13/40 - z) ^ 4 + q5 * z ^ 5 * (13/40 - z) ^ 3 + q6 * z ^ 6 * (13/40 - z) ^ 2 + q7 * z ^ 7 * (13/40 - z) + q8 * z ^ 8 := by
    rw [e0, e1, e2, e3, e4, e5, e6, e7, e8]
    simp only [chiNum, chiDen0, chiDen1, chiDen2]
    ring
  refine sub_nonneg.1 ?_
  rw [key]
  clear key e0 e1 e2 e3 e4 e5 e6 e7 e8
  positivity

/-- Rectangle 2. -/
private theorem chi_1 (u z : ℝ) (hu0 : 1/10 ≤ u) (hu1 : u ≤ 11/20) (hz0 : 13/40 ≤ z) (hz1 : z ≤ 13/20) :
    1/100000 ≤ chiNum u z := by
  have ha : 0 ≤ u - 1/10 := by linarith
  have hb : 0 ≤ 11/20 - u := by linarith
  have hc : 0 ≤ z - 13/40 := by linarith
  have hd : 0 ≤ 13/20 - z := by linarith
  obtain ⟨q0, e0⟩ : ∃ q : ℝ, q =
      (371868673780830805239725312936161/30862382306849860253906250) * (11/20 - u) ^ 9 +
      (58989019325605200848973402266693/914440957239995859375000) * (u - 1/10) * (11/20 - u) ^ 8 +
      (975956373043045452625566994108999/6858307179299968945312500) * (u - 1/10) ^ 2 * (11/20 - u) ^ 7 +
      (7596153446268404916439328737308883/41149843075799813671875000) * (u - 1/10) ^ 3 * (11/20 - u) ^ 6 +
      (26087579984141325482094514168103/152406826206665976562500) * (u - 1/10) ^ 4 * (11/20 - u) ^ 5 +
      (13066605196550441582530266277884929/109732914868799503125000000) * (u - 1/10) ^ 5 * (11/20 - u) ^ 4 +
      (771839005058957772414155652118259/13167949784255940375000000) * (u - 1/10) ^ 6 * (11/20 - u) ^ 3 +
      (1410780919306741894690836858550403/73155276579199668750000000) * (u - 1/10) ^ 7 * (11/20 - u) ^ 2 +
      (3320461568448875234779728947421167/877863318950396025000000000) * (u - 1/10) ^ 8 * (11/20 - u) +
      (2240901326341069153215146874616007/6320615896442851380000000000) * (u - 1/10) ^ 9 := ⟨_, rfl⟩
  have h0 : 0 ≤ q0 := by
    rw [e0]
    generalize u - 1/10 = a at *
    generalize 11/20 - u = b at *
    clear * - ha hb
    positivity
  obtain ⟨q1, e1⟩ : ∃ q : ℝ, q =
      (1418785153068465070110465960097288/15431191153424930126953125) * (11/20 - u) ^ 9 +
      (19978915866668498630935356860462/38101706551666494140625) * (u - 1/10) * (11/20 - u) ^ 8 +
      (2061103567655146355231036883587996/1714576794824992236328125) * (u - 1/10) ^ 2 * (11/20 - u) ^ 7 +
      (8159307760444229143567998919521766/5143730384474976708984375) * (u - 1/10) ^ 3 * (11/20 - u) ^ 6 +
      (169896798521034749449960846314836/114305119654999482421875) * (u - 1/10) ^ 4 * (11/20 - u) ^ 5 +
      (7188018572407083373449320140628929/6858307179299968945312500) * (u - 1/10) ^ 5 * (11/20 - u) ^ 4 +
      (430231350780567887620276627914259/822996861515996273437500) * (u - 1/10) ^ 6 * (11/20 - u) ^ 3 +
      (795490805506711864120459724626403/4572204786199979296875000) * (u - 1/10) ^ 7 * (11/20 - u) ^ 2 +
      (1884318292341217819926359321009167/54866457434399751562500000) * (u - 1/10) ^ 8 * (11/20 - u) +
      (1279968991293801644058523374484807/395038493527678211250000000) * (u - 1/10) ^ 9 := ⟨_, rfl⟩
  have h1 : 0 ≤ q1 := by
    rw [e1]
    generalize u - 1/10 = a at *
    generalize 11/20 - u = b at *
    clear * - ha hb
    positivity
  obtain ⟨q2, e2⟩ : ∃ q : ℝ, q =
      (4454461739050506836304292700329016/15431191153424930126953125) * (11/20 - u) ^ 9 +
      (635531584640347235591951903073106/342915358964998447265625) * (u - 1/10) * (11/20 - u) ^ 8 +
      (7767896042874808660897235468027972/1714576794824992236328125) * (u - 1/10) ^ 2 * (11/20 - u) ^ 7 +
      (31643374410126141673412052626076362/5143730384474976708984375) * (u - 1/10) ^ 3 * (11/20 - u) ^ 6 +
      (2014242444945149589736741465968356/342915358964998447265625) * (u - 1/10) ^ 4 * (11/20 - u) ^ 5 +
      (29059387347101138683750270080866503/6858307179299968945312500) * (u - 1/10) ^ 5 * (11/20 - u) ^ 4 +
      (1778143440610820110122733008575813/822996861515996273437500) * (u - 1/10) ^ 6 * (11/20 - u) ^ 3 +
      (10049363461550013182617620366522463/13716614358599937890625000) * (u - 1/10) ^ 7 * (11/20 - u) ^ 2 +
      (8025179719419546683963130128592169/54866457434399751562500000) * (u - 1/10) ^ 8 * (11/20 - u) +
      (5499888495377328898775942460606449/395038493527678211250000000) * (u - 1/10) ^ 9 := ⟨_, rfl⟩
  have h2 : 0 ≤ q2 := by
    rw [e2]
    generalize u - 1/10 = a at *
    generalize 11/20 - u = b at *
    clear * - ha hb
    positivity
  obtain ⟨q3, e3⟩ : ∃ q : ℝ, q =
      (7498500857763223110562775859012064/15431191153424930126953125) * (11/20 - u) ^ 9 +
      (1322794203748293300547711481220424/342915358964998447265625) * (u - 1/10) * (11/20 - u) ^ 8 +
      (5910838623093788713603111785845296/571525598274997412109375) * (u - 1/10) ^ 2 * (11/20 - u) ^ 7 +
      (75155230962893076715675785217353448/5143730384474976708984375) * (u - 1/10) ^ 3 * (11/20 - u) ^ 6 +
      (4914284258892524397989505758027024/342915358964998447265625) * (u - 1/10) ^ 4 * (11/20 - u) ^ 5 +
      (6087163254509609062127142921049501/571525598274997412109375) * (u - 1/10) ^ 5 * (11/20 - u) ^ 4 +
      (1149898953413938561456084299538813/205749215378999068359375) * (u - 1/10) ^ 6 * (11/20 - u) ^ 3 +
      (6650873170162677673983123314181463/3429153589649984472656250) * (u - 1/10) ^ 7 * (11/20 - u) ^ 2 +
      (598688670684078248541193110481241/1524068262066659765625000) * (u - 1/10) ^ 8 * (11/20 - u) +
      (3722483509891403620454391668272849/98759623381919552812500000) * (u - 1/10) ^ 9 := ⟨_, rfl⟩
  have h3 : 0 ≤ q3 := by
    rw [e3]
    generalize u - 1/10 = a at *
    generalize 11/20 - u = b at *
    clear * - ha hb
    positivity
  obtain ⟨q4, e4⟩ : ∃ q : ℝ, q =
      (1606351174288152077416725102674032/3086238230684986025390625) * (11/20 - u) ^ 9 +
      (385045577127752538002235773634212/68583071792999689453125) * (u - 1/10) * (11/20 - u) ^ 8 +
      (5687115828490455377155622461559944/342915358964998447265625) * (u - 1/10) ^ 2 * (11/20 - u) ^ 7 +
      (25099515719002242343877139498360724/1028746076894995341796875) * (u - 1/10) ^ 3 * (11/20 - u) ^ 6 +
      (1688769886215060233213699108602312/68583071792999689453125) * (u - 1/10) ^ 4 * (11/20 - u) ^ 5 +
      (12914832632033832175318909247810503/685830717929996894531250) * (u - 1/10) ^ 5 * (11/20 - u) ^ 4 +
      (835957976065618793524849545551813/82299686151599627343750) * (u - 1/10) ^ 6 * (11/20 - u) ^ 3 +
      (4938112794500830392153080200650463/1371661435859993789062500) * (u - 1/10) ^ 7 * (11/20 - u) ^ 2 +
      (4054331163050294409607169050080169/5486645743439975156250000) * (u - 1/10) ^ 8 * (11/20 - u) +
      (2810738432813810346771734560715249/39503849352767821125000000) * (u - 1/10) ^ 9 := ⟨_, rfl⟩
  have h4 : 0 ≤ q4 := by
    rw [e4]
    generalize u - 1/10 = a at *
    generalize 11/20 - u = b at *
    clear * - ha hb
    positivity
  obtain ⟨q5, e5⟩ : ∃ q : ℝ, q =
      (7766065383568646982496206487440256/15431191153424930126953125) * (11/20 - u) ^ 9 +
      (9155504470126124156027364261472/1411174316728388671875) * (u - 1/10) * (11/20 - u) ^ 8 +
      (34405842953459056507036891228991552/1714576794824992236328125) * (u - 1/10) ^ 2 * (11/20 - u) ^ 7 +
      (155484241954260796925075326565509792/5143730384474976708984375) * (u - 1/10) ^ 3 * (11/20 - u) ^ 6 +
      (3556487544949948659184245372938432/114305119654999482421875) * (u - 1/10) ^ 4 * (11/20 - u) ^ 5 +
      (41498895795540801572230584861658012/1714576794824992236328125) * (u - 1/10) ^ 5 * (11/20 - u) ^ 4 +
      (2734857813738805791449273838871252/205749215378999068359375) * (u - 1/10) ^ 6 * (11/20 - u) ^ 3 +
      (2727975021646145822814047918965642/571525598274997412109375) * (u - 1/10) ^ 7 * (11/20 - u) ^ 2 +
      (3388969654833179651888945725638169/3429153589649984472656250) * (u - 1/10) ^ 8 * (11/20 - u) +
      (2343880772020597886599514678256049/24689905845479888203125000) * (u - 1/10) ^ 9 := ⟨_, rfl⟩
  have h5 : 0 ≤ q5 := by
    rw [e5]
    generalize u - 1/10 = a at *
    generalize 11/20 - u = b at *
    clear * - ha hb
    positivity
  obtain ⟨q6, e6⟩ : ∃ q : ℝ, q =
      (8288838866973945784471175944336256/15431191153424930126953125) * (11/20 - u) ^ 9 +
      (2025199909558344953264369243665696/342915358964998447265625) * (u - 1/10) * (11/20 - u) ^ 8 +
      (30435311994409643948410439937215552/1714576794824992236328125) * (u - 1/10) ^ 2 * (11/20 - u) ^ 7 +
      (137480489875773406720961619097157792/5143730384474976708984375) * (u - 1/10) ^ 3 * (11/20 - u) ^ 6 +
      (9489843603710702487579913023288896/342915358964998447265625) * (u - 1/10) ^ 4 * (11/20 - u) ^ 5 +
      (37010623313899256931803552554090012/1714576794824992236328125) * (u - 1/10) ^ 5 * (11/20 - u) ^ 4 +
      (2453919152634729563440590381839252/205749215378999068359375) * (u - 1/10) ^ 6 * (11/20 - u) ^ 3 +
      (7373825790696908448537052672188926/1714576794824992236328125) * (u - 1/10) ^ 7 * (11/20 - u) ^ 2 +
      (3064112422388591538893522802804169/3429153589649984472656250) * (u - 1/10) ^ 8 * (11/20 - u) +
      (2105366869630587360234796713217649/24689905845479888203125000) * (u - 1/10) ^ 9 := ⟨_, rfl⟩
  have h6 : 0 ≤ q6 := by
    rw [e6]
    generalize u - 1/10 = a at *
    generalize 11/20 - u = b at *
    clear * - ha hb
    positivity
  obtain ⟨q7, e7⟩ : ∃ q : ℝ, q =
      (6318112315716500621973553973842432/15431191153424930126953125) * (11/20 - u) ^ 9 +
      (1208921250687044822056965269514112/342915358964998447265625) * (u - 1/10) * (11/20 - u) ^ 8 +
      (1892014189370617350845626929948416/190508532758332470703125) * (u - 1/10) ^ 2 * (11/20 - u) ^ 7 +
      (75735835095011036746106041532401024/5143730384474976708984375) * (u - 1/10) ^ 3 * (11/20 - u) ^ 6 +
      (5206864245451500149052232895674112/342915358964998447265625) * (u - 1/10) ^ 4 * (11/20 - u) ^ 5 +
      (6724248646266991098595437459578288/571525598274997412109375) * (u - 1/10) ^ 5 * (11/20 - u) ^ 4 +
      (1334633942799027679841720542996144/205749215378999068359375) * (u - 1/10) ^ 6 * (11/20 - u) ^ 3 +
      (4003330110370625836540631737265672/1714576794824992236328125) * (u - 1/10) ^ 7 * (11/20 - u) ^ 2 +
      (277217251017094229683820415178778/571525598274997412109375) * (u - 1/10) ^ 8 * (11/20 - u) +
      (283409662512871952216280207703207/6172476461369972050781250) * (u - 1/10) ^ 9 := ⟨_, rfl⟩
  have h7 : 0 ≤ q7 := by
    rw [e7]
    generalize u - 1/10 = a at *
    generalize 11/20 - u = b at *
    clear * - ha hb
    positivity
  obtain ⟨q8, e8⟩ : ∃ q : ℝ, q =
      (2055643205458771781787520847892608/15431191153424930126953125) * (11/20 - u) ^ 9 +
      (330040371423937396713918577154528/342915358964998447265625) * (u - 1/10) * (11/20 - u) ^ 8 +
      (1455093412358804874099299422997312/571525598274997412109375) * (u - 1/10) ^ 2 * (11/20 - u) ^ 7 +
      (19047675718008766280649525314716256/5143730384474976708984375) * (u - 1/10) ^ 3 * (11/20 - u) ^ 6 +
      (1299217771598670893921393315489728/342915358964998447265625) * (u - 1/10) ^ 4 * (11/20 - u) ^ 5 +
      (1661303527439990110985227271142572/571525598274997412109375) * (u - 1/10) ^ 5 * (11/20 - u) ^ 4 +
      (327850349300996804167266966905036/205749215378999068359375) * (u - 1/10) ^ 6 * (11/20 - u) ^ 3 +
      (979134920969626518817565657430418/1714576794824992236328125) * (u - 1/10) ^ 7 * (11/20 - u) ^ 2 +
      (45116954519221715806737471129463/381017065516664941406250) * (u - 1/10) ^ 8 * (11/20 - u) +
      (274601621301754628565189356670407/24689905845479888203125000) * (u - 1/10) ^ 9 := ⟨_, rfl⟩
  have h8 : 0 ≤ q8 := by
    rw [e8]
    generalize u - 1/10 = a at *
    generalize 11/20 - u = b at *
    clear * - ha hb
    positivity
  have key : chiNum u z - 1/100000 =
      q0 * (13/20 - z) ^ 8 + q1 * (z - 13/40) * (13/20 - z) ^ 7 + q2 * (z - 13/40) ^ 2 * (13/20 - z) ^ 6 + q3 * (z - 13/40) ^ 3 * (13/20 - z) ^ 5 + q4 * (z - 13/40) ^ 4 * (13/20 - z) ^ 4 + q5 * (z - 13/40) ^ 5 * (13/20 - z) ^ 3 + q6 * (z - 13/40) ^ 6 * (13/20 - z) ^ 2 + q7 * (z - 13/40) ^ 7 * (13/20 - z) + q8 * (z - 13/40) ^ 8 := by
    rw [e0, e1, e2, e3, e4, e5, e6, e7, e8]
    simp only [chiNum, chiDen0, chiDen1, chiDen2]
    ring
  refine sub_nonneg.1 ?_
  rw [key]
  clear key e0 e1 e2 e3 e4 e5 e6 e7 e8
  positivity

/-- Rectangle 3. -/
private theorem chi_2 (u z : ℝ) (hu0 : 11/20 ≤ u) (hu1 : u ≤ 1) (hz0 : 0 ≤ z) (hz1 : z ≤ 13/20) :
    1/100000 ≤ chiNum u z := by
  have ha : 0 ≤ u - 11/20 := by linarith
  have hb : 0 ≤ 1 - u := by linarith
  have hd : 0 ≤ 13/20 - z := by linarith
  obtain ⟨q0, e0⟩ : ∃ q : ℝ, q =
      (186414064474733090967472/197519246763839105625) * (1 - u) ^ 9 +
      (61669684178417388778064/8440993451446115625) * (u - 11/20) * (1 - u) ^ 8 +
      (3088432861297495334167328/109732914868799503125) * (u - 11/20) ^ 2 * (1 - u) ^ 7 +
      (24143859764171281593640448/329198744606398509375) * (u - 11/20) ^ 3 * (1 - u) ^ 6 +
      (3275636790858128685395456/21946582973759900625) * (u - 11/20) ^ 4 * (1 - u) ^ 5 +
      (210090539053554720985088/877863318950396025) * (u - 11/20) ^ 5 * (1 - u) ^ 4 +
      (12170411347682282971136/40516768566941355) * (u - 11/20) ^ 6 * (1 - u) ^ 3 +
      (10507848897128509997056/35114532758015841) * (u - 11/20) ^ 7 * (1 - u) ^ 2 +
      (7223662936114265718784/35114532758015841) * (u - 11/20) ^ 8 * (1 - u) +
      (20614041386322944327680/316030794822142569) * (u - 11/20) ^ 9 := ⟨_, rfl⟩
  have h0 : 0 ≤ q0 := by
    rw [e0]
    generalize u - 11/20 = a at *
    generalize 1 - u = b at *
    clear * - ha hb
    positivity
  obtain ⟨q1, e1⟩ : ∃ q : ℝ, q =
      (1602032255302065507259616/197519246763839105625) * (1 - u) ^ 9 +
      (515684954314711103796992/8440993451446115625) * (u - 11/20) * (1 - u) ^ 8 +
      (8479770483389978725372448/36577638289599834375) * (u - 11/20) ^ 2 * (1 - u) ^ 7 +
      (196704240347798613815577664/329198744606398509375) * (u - 11/20) ^ 3 * (1 - u) ^ 6 +
      (26498877305909379133389824/21946582973759900625) * (u - 11/20) ^ 4 * (1 - u) ^ 5 +
      (103924291804525483380224/54189093762370125) * (u - 11/20) ^ 5 * (1 - u) ^ 4 +
      (2417584557164605569452032/1012919214173533875) * (u - 11/20) ^ 6 * (1 - u) ^ 3 +
      (2069958493819283986014208/877863318950396025) * (u - 11/20) ^ 7 * (1 - u) ^ 2 +
      (92841754189949962387456/58524221263359735) * (u - 11/20) ^ 8 * (1 - u) +
      (153629313248790208053248/316030794822142569) * (u - 11/20) ^ 9 := ⟨_, rfl⟩
  have h1 : 0 ≤ q1 := by
    rw [e1]
    generalize u - 11/20 = a at *
    generalize 1 - u = b at *
    clear * - ha hb
    positivity
  obtain ⟨q2, e2⟩ : ∃ q : ℝ, q =
      (5994631981821932003728096/197519246763839105625) * (1 - u) ^ 9 +
      (627681174402430280264384/2813664483815371875) * (u - 11/20) * (1 - u) ^ 8 +
      (91599060034859683876136224/109732914868799503125) * (u - 11/20) ^ 2 * (1 - u) ^ 7 +
      (700901609037794412087111104/329198744606398509375) * (u - 11/20) ^ 3 * (1 - u) ^ 6 +
      (83354943108744933993472/19508073754453245) * (u - 11/20) ^ 4 * (1 - u) ^ 5 +
      (29512397985668288138674688/4389316594751980125) * (u - 11/20) ^ 5 * (1 - u) ^ 4 +
      (8403803956774640906369024/1012919214173533875) * (u - 11/20) ^ 6 * (1 - u) ^ 3 +
      (2378071742915010301386752/292621106316798675) * (u - 11/20) ^ 7 * (1 - u) ^ 2 +
      (938364026932952009506816/175572663790079205) * (u - 11/20) ^ 8 * (1 - u) +
      (498212033924489015197696/316030794822142569) * (u - 11/20) ^ 9 := ⟨_, rfl⟩
  have h2 : 0 ≤ q2 := by
    rw [e2]
    generalize u - 11/20 = a at *
    generalize 1 - u = b at *
    clear * - ha hb
    positivity
  obtain ⟨q3, e3⟩ : ∃ q : ℝ, q =
      (12764302140173269464095072/197519246763839105625) * (1 - u) ^ 9 +
      (3922379412626185636593664/8440993451446115625) * (u - 11/20) * (1 - u) ^ 8 +
      (188321059988249182271723488/109732914868799503125) * (u - 11/20) ^ 2 * (1 - u) ^ 7 +
      (1426676753716587351639400768/329198744606398509375) * (u - 11/20) ^ 3 * (1 - u) ^ 6 +
      (189605102847986549036895232/21946582973759900625) * (u - 11/20) ^ 4 * (1 - u) ^ 5 +
      (59124518489507203478111744/4389316594751980125) * (u - 11/20) ^ 5 * (1 - u) ^ 4 +
      (16692123926946324639311872/1012919214173533875) * (u - 11/20) ^ 6 * (1 - u) ^ 3 +
      (14047151458245135714541568/877863318950396025) * (u - 11/20) ^ 7 * (1 - u) ^ 2 +
      (1803779269742858827890688/175572663790079205) * (u - 11/20) ^ 8 * (1 - u) +
      (917442942956424604418048/316030794822142569) * (u - 11/20) ^ 9 := ⟨_, rfl⟩
  have h3 : 0 ≤ q3 := by
    rw [e3]
    generalize u - 11/20 = a at *
    generalize 1 - u = b at *
    clear * - ha hb
    positivity
  obtain ⟨q4, e4⟩ : ∃ q : ℝ, q =
      (3384835079175668730183488/39503849352767821125) * (1 - u) ^ 9 +
      (1019667944709447397900256/1688198690289223125) * (u - 11/20) * (1 - u) ^ 8 +
      (16120333325564916399264544/7315527657919966875) * (u - 11/20) ^ 2 * (1 - u) ^ 7 +
      (362887572339396469776144832/65839748921279701875) * (u - 11/20) ^ 3 * (1 - u) ^ 6 +
      (47915395925324249147119616/4389316594751980125) * (u - 11/20) ^ 4 * (1 - u) ^ 5 +
      (4935353417306485889906176/292621106316798675) * (u - 11/20) ^ 5 * (1 - u) ^ 4 +
      (4144159985085841866471424/202583842834706775) * (u - 11/20) ^ 6 * (1 - u) ^ 3 +
      (3456468114750052405190656/175572663790079205) * (u - 11/20) ^ 7 * (1 - u) ^ 2 +
      (48078624600550378799104/3901614750890649) * (u - 11/20) ^ 8 * (1 - u) +
      (1048077272579838973050880/316030794822142569) * (u - 11/20) ^ 9 := ⟨_, rfl⟩
  have h4 : 0 ≤ q4 := by
    rw [e4]
    generalize u - 11/20 = a at *
    generalize 1 - u = b at *
    clear * - ha hb
    positivity
  obtain ⟨q5, e5⟩ : ∃ q : ℝ, q =
      (71464658483580503100854254597/987596233819195528125000) * (1 - u) ^ 9 +
      (4332435151711987059803753461/8440993451446115625000) * (u - 11/20) * (1 - u) ^ 8 +
      (10484231341551476235909908213/5486645743439975156250) * (u - 11/20) ^ 2 * (1 - u) ^ 7 +
      (8209777817102868496247710118/1645993723031992546875) * (u - 11/20) ^ 3 * (1 - u) ^ 6 +
      (5757341678705455801959092056/548664574343997515625) * (u - 11/20) ^ 4 * (1 - u) ^ 5 +
      (1908731681931057939588219872/109732914868799503125) * (u - 11/20) ^ 5 * (1 - u) ^ 4 +
      (114476771203416048687504512/5064596070867669375) * (u - 11/20) ^ 6 * (1 - u) ^ 3 +
      (100871009543556642294656512/4389316594751980125) * (u - 11/20) ^ 7 * (1 - u) ^ 2 +
      (13338984379466191359444992/877863318950396025) * (u - 11/20) ^ 8 * (1 - u) +
      (6950152392810355017908224/1580153974110712845) * (u - 11/20) ^ 9 := ⟨_, rfl⟩
  have h5 : 0 ≤ q5 := by
    rw [e5]
    generalize u - 11/20 = a at *
    generalize 1 - u = b at *
    clear * - ha hb
    positivity
  obtain ⟨q6, e6⟩ : ∃ q : ℝ, q =
      (37401839726664018226999563791/987596233819195528125000) * (1 - u) ^ 9 +
      (2488041275618279290393980383/8440993451446115625000) * (u - 11/20) * (1 - u) ^ 8 +
      (6759900044454072656887804639/5486645743439975156250) * (u - 11/20) ^ 2 * (1 - u) ^ 7 +
      (6236219477928796725284103154/1645993723031992546875) * (u - 11/20) ^ 3 * (1 - u) ^ 6 +
      (5190352012119782741518210568/548664574343997515625) * (u - 11/20) ^ 4 * (1 - u) ^ 5 +
      (2019693856904778041296909216/109732914868799503125) * (u - 11/20) ^ 5 * (1 - u) ^ 4 +
      (137377154221985624473204096/5064596070867669375) * (u - 11/20) ^ 6 * (1 - u) ^ 3 +
      (132002412885616567562226176/4389316594751980125) * (u - 11/20) ^ 7 * (1 - u) ^ 2 +
      (19111059909381355529967616/877863318950396025) * (u - 11/20) ^ 8 * (1 - u) +
      (11159495701558209582989312/1580153974110712845) * (u - 11/20) ^ 9 := ⟨_, rfl⟩
  have h6 : 0 ≤ q6 := by
    rw [e6]
    generalize u - 11/20 = a at *
    generalize 1 - u = b at *
    clear * - ha hb
    positivity
  obtain ⟨q7, e7⟩ : ∃ q : ℝ, q =
      (11010051513896654563863563791/987596233819195528125000) * (1 - u) ^ 9 +
      (942062859626723604817980383/8440993451446115625000) * (u - 11/20) * (1 - u) ^ 8 +
      (1053057730434531956925124213/1828881914479991718750) * (u - 11/20) ^ 2 * (1 - u) ^ 7 +
      (3573098145101683291268272754/1645993723031992546875) * (u - 11/20) ^ 3 * (1 - u) ^ 6 +
      (3449709574025196021241320968/548664574343997515625) * (u - 11/20) ^ 4 * (1 - u) ^ 5 +
      (165497931484706653199563424/12192546096533278125) * (u - 11/20) ^ 5 * (1 - u) ^ 4 +
      (108105965718809488779625856/5064596070867669375) * (u - 11/20) ^ 6 * (1 - u) ^ 3 +
      (107945580635244553507375616/4389316594751980125) * (u - 11/20) ^ 7 * (1 - u) ^ 2 +
      (5409572094184891527268352/292621106316798675) * (u - 11/20) ^ 8 * (1 - u) +
      (9887902811851449409994752/1580153974110712845) * (u - 11/20) ^ 9 := ⟨_, rfl⟩
  have h7 : 0 ≤ q7 := by
    rw [e7]
    generalize u - 11/20 = a at *
    generalize 1 - u = b at *
    clear * - ha hb
    positivity
  obtain ⟨q8, e8⟩ : ∃ q : ℝ, q =
      (274601621301754628565189356670407/6320615896442851380000000000) * (1 - u) ^ 9 +
      (43146378858675558331128638693977/135055895223137850000000000) * (u - 11/20) * (1 - u) ^ 8 +
      (4965941756283429858170430237637/4572204786199979296875000) * (u - 11/20) ^ 2 * (1 - u) ^ 7 +
      (157739984869090369274776851278029/65839748921279701875000000) * (u - 11/20) ^ 3 * (1 - u) ^ 6 +
      (4836639212908966074120671209847/1097329148687995031250000) * (u - 11/20) ^ 4 * (1 - u) ^ 5 +
      (64054653621192091198560782501/9144409572399958593750) * (u - 11/20) ^ 5 * (1 - u) ^ 4 +
      (5211795749280513993089307614/633074508858458671875) * (u - 11/20) ^ 6 * (1 - u) ^ 3 +
      (3580188819814018113860393132/548664574343997515625) * (u - 11/20) ^ 7 * (1 - u) ^ 2 +
      (37416822421229031156500368/12192546096533278125) * (u - 11/20) ^ 8 * (1 - u) +
      (97662887537964592736164288/197519246763839105625) * (u - 11/20) ^ 9 := ⟨_, rfl⟩
  have h8 : 0 ≤ q8 := by
    rw [e8]
    generalize u - 11/20 = a at *
    generalize 1 - u = b at *
    clear * - ha hb
    positivity
  have key : chiNum u z - 1/100000 =
      q0 * (13/20 - z) ^ 8 + q1 * z * (13/20 - z) ^ 7 + q2 * z ^ 2 * (13/20 - z) ^ 6 + q3 * z ^ 3 * (13/20 - z) ^ 5 + q4 * z ^ 4 * (13/20 - z) ^ 4 + q5 * z ^ 5 * (13/20 - z) ^ 3 + q6 * z ^ 6 * (13/20 - z) ^ 2 + q7 * z ^ 7 * (13/20 - z) + q8 * z ^ 8 := by
    rw [e0, e1, e2, e3, e4, e5, e6, e7, e8]
    simp only [chiNum, chiDen0, chiDen1, chiDen2]
    ring
  refine sub_nonneg.1 ?_
  rw [key]
  clear key e0 e1 e2 e3 e4 e5 e6 e7 e8
  positivity

/-- Steep wells at high density. -/
private theorem chi_neg (u z : ℝ) (hu0 : 22/25 ≤ u) (hu1 : u ≤ 2) (hz0 : 17/20 ≤ z) (hz1 : z ≤ 1) :
    1/100000 ≤ -chiNum u z := by
  have ha : 0 ≤ u - 22/25 := by linarith
  have hb : 0 ≤ 2 - u := by linarith
  have hc : 0 ≤ z - 17/20 := by linarith
  have hd : 0 ≤ 1 - z := by linarith
  obtain ⟨q0, e0⟩ : ∃ q : ℝ, q =
      (112022727084120353659232614790011/54222851179929600000000000) * (2 - u) ^ 9 +
      (383802136516110090439986741549809/867565618878873600000000) * (u - 22/25) * (2 - u) ^ 8 +
      (39709481498223913601512008520363897/4337828094394368000000000) * (u - 22/25) ^ 2 * (2 - u) ^ 7 +
      (27385524634359339104816755985743/306019618652160000000) * (u - 22/25) ^ 3 * (2 - u) ^ 6 +
      (510284119989383953701105401844199/991503564432998400000) * (u - 22/25) ^ 4 * (2 - u) ^ 5 +
      (74891476944047224155781677622561/39660142577319936000) * (u - 22/25) ^ 5 * (2 - u) ^ 4 +
      (7181870367535483584412379072269/1586405703092797440) * (u - 22/25) ^ 6 * (2 - u) ^ 3 +
      (1708603898186152452625425948455/246774220481101824) * (u - 22/25) ^ 7 * (2 - u) ^ 2 +
      (13645143516238499929331594298625/2220967984329916416) * (u - 22/25) ^ 8 * (2 - u) +
      (166413270649325259095743609375/69405249510309888) * (u - 22/25) ^ 9 := ⟨_, rfl⟩
  have h0 : 0 ≤ q0 := by
    rw [e0]
    generalize u - 22/25 = a at *
    generalize 2 - u = b at *
    clear * - ha hb
    positivity
  obtain ⟨q1, e1⟩ : ∃ q : ℝ, q =
      (14513953543587186041943274780133/338892819874560000000000) * (2 - u) ^ 9 +
      (5201435512642080423088215534149/1084457023598592000000) * (u - 22/25) * (2 - u) ^ 8 +
      (2544763538721353776709690725949141/27111425589964800000000) * (u - 22/25) ^ 2 * (2 - u) ^ 7 +
      (46343973160394897219662043509033/51640810647552000000) * (u - 22/25) ^ 3 * (2 - u) ^ 6 +
      (31594108199802238918215653872547/6196897277706240000) * (u - 22/25) ^ 4 * (2 - u) ^ 5 +
      (4598569962950159073487651306733/247875891108249600) * (u - 22/25) ^ 5 * (2 - u) ^ 4 +
      (438037912674818288051739951257/9915035644329984) * (u - 22/25) ^ 6 * (2 - u) ^ 3 +
      (1553616268898565328500595751725/23135083170103296) * (u - 22/25) ^ 7 * (2 - u) ^ 2 +
      (4111697090736872214053392448125/69405249510309888) * (u - 22/25) ^ 8 * (2 - u) +
      (398962490208110767148610078125/17351312377577472) * (u - 22/25) ^ 9 := ⟨_, rfl⟩
  have h1 : 0 ≤ q1 := by
    rw [e1]
    generalize u - 22/25 = a at *
    generalize 2 - u = b at *
    clear * - ha hb
    positivity
  obtain ⟨q2, e2⟩ : ∃ q : ℝ, q =
      (2273308499842819553298867310267/8472320496864000000000) * (2 - u) ^ 9 +
      (60293219656443577933037880884659/2711142558996480000000) * (u - 22/25) * (2 - u) ^ 8 +
      (1130065773836764576312870636912861/2711142558996480000000) * (u - 22/25) ^ 2 * (2 - u) ^ 7 +
      (20204537050166987620698315814093/5164081064755200000) * (u - 22/25) ^ 3 * (2 - u) ^ 6 +
      (13630514819615388710890590147367/619689727770624000) * (u - 22/25) ^ 4 * (2 - u) ^ 5 +
      (1969631492899182928064814367813/24787589110824960) * (u - 22/25) ^ 5 * (2 - u) ^ 4 +
      (932531248886351629012274606885/4957517822164992) * (u - 22/25) ^ 6 * (2 - u) ^ 3 +
      (3289344434060446097018441241125/11567541585051648) * (u - 22/25) ^ 7 * (2 - u) ^ 2 +
      (8659343205985825109018536459375/34702624755154944) * (u - 22/25) ^ 8 * (2 - u) +
      (1671991300544095263188524609375/17351312377577472) * (u - 22/25) ^ 9 := ⟨_, rfl⟩
  have h2 : 0 ≤ q2 := by
    rw [e2]
    generalize u - 22/25 = a at *
    generalize 2 - u = b at *
    clear * - ha hb
    positivity
  obtain ⟨q3, e3⟩ : ∃ q : ℝ, q =
      (811351967222665509302082144211/968265199641600000000) * (2 - u) ^ 9 +
      (1402065107576784516316551263459/24206629991040000000) * (u - 22/25) * (2 - u) ^ 8 +
      (40625363772495512622292468970171/38730607985664000000) * (u - 22/25) ^ 2 * (2 - u) ^ 7 +
      (238389714920199856723364964331/24590862213120000) * (u - 22/25) ^ 3 * (2 - u) ^ 6 +
      (95624691342898883497342716787/1770542079344640) * (u - 22/25) ^ 4 * (2 - u) ^ 5 +
      (68651580919591858456560261275/354108415868928) * (u - 22/25) ^ 5 * (2 - u) ^ 4 +
      (161660305719598966434321275375/354108415868928) * (u - 22/25) ^ 6 * (2 - u) ^ 3 +
      (63046404941201026392702783125/91805885595648) * (u - 22/25) ^ 7 * (2 - u) ^ 2 +
      (5806910568600145757266140625/9682651996416) * (u - 22/25) ^ 8 * (2 - u) +
      (571411970846138450495380859375/2478758911082496) * (u - 22/25) ^ 9 := ⟨_, rfl⟩
  have h3 : 0 ≤ q3 := by
    rw [e3]
    generalize u - 22/25 = a at *
    generalize 2 - u = b at *
    clear * - ha hb
    positivity
  obtain ⟨q4, e4⟩ : ∃ q : ℝ, q =
      (412672688448939278799085726211/271114255899648000000) * (2 - u) ^ 9 +
      (5044221024286658133147602485553/54222851179929600000) * (u - 22/25) * (2 - u) ^ 8 +
      (2220714681681946573747679291297/1355571279498240000) * (u - 22/25) ^ 2 * (2 - u) ^ 7 +
      (38580516144434329063506559231/2582040532377600) * (u - 22/25) ^ 3 * (2 - u) ^ 6 +
      (102360618228863904018784239437/1239379455541248) * (u - 22/25) ^ 4 * (2 - u) ^ 5 +
      (365377434474830031116100854075/1239379455541248) * (u - 22/25) ^ 5 * (2 - u) ^ 4 +
      (107041678486812573198178721875/154922431942656) * (u - 22/25) ^ 6 * (2 - u) ^ 3 +
      (374036969296614710350277796875/361485674532864) * (u - 22/25) ^ 7 * (2 - u) ^ 2 +
      (15610189882398634896710915234375/17351312377577472) * (u - 22/25) ^ 8 * (2 - u) +
      (5974717172583974612297119140625/17351312377577472) * (u - 22/25) ^ 9 := ⟨_, rfl⟩
  have h4 : 0 ≤ q4 := by
    rw [e4]
    generalize u - 22/25 = a at *
    generalize 2 - u = b at *
    clear * - ha hb
    positivity
  obtain ⟨q5, e5⟩ : ∃ q : ℝ, q =
      (458915260935381849272118029533/271114255899648000000) * (2 - u) ^ 9 +
      (1025908720132134152163751454891/10844570235985920000) * (u - 22/25) * (2 - u) ^ 8 +
      (2206522280135051744527194159901/1355571279498240000) * (u - 22/25) ^ 2 * (2 - u) ^ 7 +
      (18950338284848601501274167803/1291020266188800) * (u - 22/25) ^ 3 * (2 - u) ^ 6 +
      (99863061604464297892945876531/1239379455541248) * (u - 22/25) ^ 4 * (2 - u) ^ 5 +
      (354685823524053292839075760225/1239379455541248) * (u - 22/25) ^ 5 * (2 - u) ^ 4 +
      (51734915182298972039274566125/77461215971328) * (u - 22/25) ^ 6 * (2 - u) ^ 3 +
      (720195578634688116868699384375/722971349065728) * (u - 22/25) ^ 7 * (2 - u) ^ 2 +
      (14968216786037375959779654765625/17351312377577472) * (u - 22/25) ^ 8 * (2 - u) +
      (5706486830224278439576162109375/17351312377577472) * (u - 22/25) ^ 9 := ⟨_, rfl⟩
  have h5 : 0 ≤ q5 := by
    rw [e5]
    generalize u - 22/25 = a at *
    generalize 2 - u = b at *
    clear * - ha hb
    positivity
  obtain ⟨q6, e6⟩ : ∃ q : ℝ, q =
      (61893762352869105056757304483/54222851179929600000) * (2 - u) ^ 9 +
      (646305067268293785353827700617/10844570235985920000) * (u - 22/25) * (2 - u) ^ 8 +
      (272646717053198453062256262031/271114255899648000) * (u - 22/25) ^ 2 * (2 - u) ^ 7 +
      (3864311511373611171172535449/430340088729600) * (u - 22/25) ^ 3 * (2 - u) ^ 6 +
      (60719222190114999265383312401/1239379455541248) * (u - 22/25) ^ 4 * (2 - u) ^ 5 +
      (214697900253317470670054698475/1239379455541248) * (u - 22/25) ^ 5 * (2 - u) ^ 4 +
      (15598370087724107775424511125/38730607985664) * (u - 22/25) ^ 6 * (2 - u) ^ 3 +
      (144231796097738019703593896875/240990449688576) * (u - 22/25) ^ 7 * (2 - u) ^ 2 +
      (8959938687051639470645878671875/17351312377577472) * (u - 22/25) ^ 8 * (2 - u) +
      (3403492413959707123017314453125/17351312377577472) * (u - 22/25) ^ 9 := ⟨_, rfl⟩
  have h6 : 0 ≤ q6 := by
    rw [e6]
    generalize u - 22/25 = a at *
    generalize 2 - u = b at *
    clear * - ha hb
    positivity
  obtain ⟨q7, e7⟩ : ∃ q : ℝ, q =
      (4666734828214862974022103313/10844570235985920000) * (2 - u) ^ 9 +
      (230952704568454265316861407327/10844570235985920000) * (u - 22/25) * (2 - u) ^ 8 +
      (19165021921352451521373211573/54222851179929600) * (u - 22/25) ^ 2 * (2 - u) ^ 7 +
      (4039468698525363106661114557/1291020266188800) * (u - 22/25) ^ 3 * (2 - u) ^ 6 +
      (21042632860317160023231710743/1239379455541248) * (u - 22/25) ^ 4 * (2 - u) ^ 5 +
      (74107947634293380209275486925/1239379455541248) * (u - 22/25) ^ 5 * (2 - u) ^ 4 +
      (5365590752840350270890600875/38730607985664) * (u - 22/25) ^ 6 * (2 - u) ^ 3 +
      (148343937998688698789449634375/722971349065728) * (u - 22/25) ^ 7 * (2 - u) ^ 2 +
      (3061455569191609108195878203125/17351312377577472) * (u - 22/25) ^ 8 * (2 - u) +
      (1159013336262182921049013671875/17351312377577472) * (u - 22/25) ^ 9 := ⟨_, rfl⟩
  have h7 : 0 ≤ q7 := by
    rw [e7]
    generalize u - 22/25 = a at *
    generalize 2 - u = b at *
    clear * - ha hb
    positivity
  obtain ⟨q8, e8⟩ : ∃ q : ℝ, q =
      (27036958750557525054595103/387306079856640000) * (2 - u) ^ 9 +
      (1281474541489684274625624913/387306079856640000) * (u - 22/25) * (2 - u) ^ 8 +
      (104833429158010721682528503/1936530399283200) * (u - 22/25) ^ 2 * (2 - u) ^ 7 +
      (21928822476257021628328933/46107866649600) * (u - 22/25) ^ 3 * (2 - u) ^ 6 +
      (113681285541493309151374985/44263551983616) * (u - 22/25) ^ 4 * (2 - u) ^ 5 +
      (398924645689288148772717875/44263551983616) * (u - 22/25) ^ 5 * (2 - u) ^ 4 +
      (57585816300353700045888125/2766471998976) * (u - 22/25) ^ 6 * (2 - u) ^ 3 +
      (793622918670131151914328125/25820405323776) * (u - 22/25) ^ 7 * (2 - u) ^ 2 +
      (16327773390385668988448046875/619689727770624) * (u - 22/25) ^ 8 * (2 - u) +
      (6162225009331722005517578125/619689727770624) * (u - 22/25) ^ 9 := ⟨_, rfl⟩
  have h8 : 0 ≤ q8 := by
    rw [e8]
    generalize u - 22/25 = a at *
    generalize 2 - u = b at *
    clear * - ha hb
    positivity
  have key : -chiNum u z - 1/100000 =
      q0 * (1 - z) ^ 8 + q1 * (z - 17/20) * (1 - z) ^ 7 + q2 * (z - 17/20) ^ 2 * (1 - z) ^ 6 + q3 * (z - 17/20) ^ 3 * (1 - z) ^ 5 + q4 * (z - 17/20) ^ 4 * (1 - z) ^ 4 + q5 * (z - 17/20) ^ 5 * (1 - z) ^ 3 + q6 * (z - 17/20) ^ 6 * (1 - z) ^ 2 + q7 * (z - 17/20) ^ 7 * (1 - z) + q8 * (z - 17/20) ^ 8 := by
    rw [e0, e1, e2, e3, e4, e5, e6, e7, e8]
    simp only [chiNum, chiDen0, chiDen1, chiDen2]
    ring
  refine sub_nonneg.1 ?_
  rw [key]
  clear key e0 e1 e2 e3 e4 e5 e6 e7 e8
  positivity

private theorem chi_eq (α zs : ℝ) (hα : 0 ≤ α) :
    1 + chi zs α = chiNum α zs / (fmDen 0 α * fmDen 1 α * fmDen 2 α) := by
  have h0 := (c115_den_pos 0 (by decide) α hα).ne'
  have h1 := (c115_den_pos 1 (by decide) α hα).ne'
  have h2 := (c115_den_pos 2 (by decide) α hα).ne'
  have e0 : fmDen 0 α = chiDen0 α := by simp only [fmDen, phimn, chiDen0, Matrix.cons_val]; ring
  have e1 : fmDen 1 α = chiDen1 α := by simp only [fmDen, phimn, chiDen1, Matrix.cons_val]; ring
  have e2 : fmDen 2 α = chiDen2 α := by simp only [fmDen, phimn, chiDen2, Matrix.cons_val]; ring
  have n0 : fmNum 0 α = 7.5365557 - 37.60463 * α + 71.745953 * α ^ 2 - 46.83552 * α ^ 3 := by
    simp only [fmNum, phimn, Matrix.cons_val]; ring
  have n1 : fmNum 1 α = -359.44 + 1825.6 * α - 3168 * α ^ 2 + 1884.2 * α ^ 3 := by
    simp only [fmNum, phimn, Matrix.cons_val]; ring
  have n2 : fmNum 2 α = 1550.9 - 5070.1 * α + 6534.6 * α ^ 2 - 3288.7 * α ^ 3 := by
    simp only [fmNum, phimn, Matrix.cons_val]; ring
  unfold chi f chiNum
  rw [e0] at h0
  rw [e1] at h1
  rw [e2] at h2
  rw [n0, n1, n2, e0, e1, e2]
  clear n0 n1 n2 e0 e1 e2
  generalize chiDen0 α = a at *
  generalize chiDen1 α = b at *
  generalize chiDen2 α = c at *
  generalize (7.5365557 - 37.60463 * α + 71.745953 * α ^ 2 - 46.83552 * α ^ 3) = p
  generalize (-359.44 + 1825.6 * α - 3168 * α ^ 2 + 1884.2 * α ^ 3) = q
  generalize (1550.9 - 5070.1 * α + 6534.6 * α ^ 2 - 3288.7 * α ^ 3) = r
  field_simp
  ring

private theorem dens_pos (α : ℝ) (hα : 0 ≤ α) : 0 < fmDen 0 α * fmDen 1 α * fmDen 2 α :=
  mul_pos (mul_pos (c115_den_pos 0 (by decide) α hα) (c115_den_pos 1 (by decide) α hα)) (c115_den_pos 2 (by decide) α hα)

/-- **C153** (correction): positive for van der Waals energies between 0.1 and 1 and reduced densities up to 0.65. -/
theorem c153_correction_partial (α zs : ℝ) (h0 : 0.1 ≤ α) (h1 : α ≤ 1) (hz : 0 ≤ zs) (hz1 : zs ≤ 0.65) : 0 < 1 + chi zs α := by
  have h0' : 1/10 ≤ α := by norm_num at h0 ⊢; exact h0
  have hz' : zs ≤ 13/20 := by norm_num at hz1 ⊢; exact hz1
  have hα : 0 ≤ α := by linarith
  rw [chi_eq α zs hα]
  refine div_pos ?_ (dens_pos α hα)
  rcases le_total α (11/20) with h | h
  · rcases le_total zs (13/40) with hz2 | hz2
    · linarith [chi_0 α zs h0' h hz hz2]
    · linarith [chi_1 α zs h0' h hz2 hz']
  · linarith [chi_2 α zs h h1 hz hz']

/-- **C153, violated** (correction): negative for van der Waals energies between 0.88 and 2 and reduced densities from 0.85
to one. -/
theorem c153_violated_correction (α zs : ℝ) (h0 : 0.88 ≤ α) (h1 : α ≤ 2) (hz : 0.85 ≤ zs) (hz1 : zs ≤ 1) : 1 + chi zs α < 0 := by
  have hα : 0 ≤ α := by linarith
  rw [chi_eq α zs hα]
  refine div_neg_of_neg_of_pos ?_ (dens_pos α hα)
  linarith [chi_neg α zs (by norm_num at h0 ⊢; exact h0) h1 (by norm_num at hz ⊢; exact hz) hz1]

/-- The potential of Lennard-Jones has the van der Waals energy 8/9. -/
theorem c153_lennard_jones : alphaOf 12 6 = 8 / 9 := by
  unfold alphaOf prefactor
  norm_num

/-- **C153, violated** (Lennard-Jones): the correction is negative between the reduced densities 0.85 and one. -/
theorem c153_violated_lennard_jones (zs : ℝ) (hz : 0.85 ≤ zs) (hz1 : zs ≤ 1) : 1 + chi zs (alphaOf 12 6) < 0 := by
  rw [c153_lennard_jones]
  exact c153_violated_correction _ zs (by norm_num) (by norm_num) hz hz1

/-! ## The bracket -/

/-- The energy of the Sutherland potential of exponent `l` from the contact distance on, in reduced units. -/
noncomputable def suth (l z x : ℝ) : ℝ :=
  -((1 - etaEff l z / 2) / (1 - etaEff l z) ^ 3) / (l - 3) + (1 - z / 2) / (1 - z) ^ 3 * iFun l x
    - 9 * z * (1 + z) / (2 * (1 - z) ^ 3) * jFun l x

theorem suth_eq (M ρ C l z ε d x : ℝ) : a1sEff M ρ C l z ε d + bEff M ρ l C d ε x z =
    2 * Real.pi * C * ρ * ε * (d ^ 3 * M ^ 2) * suth l z x := by
  simp only [a1sEff, bEff, suth]
  ring

/-- Multiplied by the power of the contact distance. -/
theorem suth_pow (l z x : ℝ) (hx : 0 < x) (h3 : l - 3 ≠ 0) (h4 : l - 4 ≠ 0) :
    x ^ l * suth l z x =
      x ^ l * (((1 - z / 2) / (1 - z) ^ 3 - (1 - etaEff l z / 2) / (1 - etaEff l z) ^ 3) / (l - 3)
        - 9 * z * (1 + z) / (2 * (1 - z) ^ 3) / ((l - 3) * (l - 4)))
      - (1 - z / 2) / (1 - z) ^ 3 / (l - 3) * x ^ 3
      + 9 * z * (1 + z) / (2 * (1 - z) ^ 3) * (x ^ 4 / (l - 4) - x ^ 3 / (l - 3)) := by
  have a3 : x ^ l * x ^ (3 - l) = x ^ 3 := by
    rw [← Real.rpow_add hx, show l + (3 - l) = ((3 : ℕ) : ℝ) by push_cast; ring, Real.rpow_natCast]
  have a4 : x ^ l * x ^ (4 - l) = x ^ 4 := by
    rw [← Real.rpow_add hx, show l + (4 - l) = ((4 : ℕ) : ℝ) by push_cast; ring, Real.rpow_natCast]
  unfold suth iFun jFun
  generalize (1 - z / 2) / (1 - z) ^ 3 = G
  generalize 9 * z * (1 + z) / (2 * (1 - z) ^ 3) = K
  generalize (1 - etaEff l z / 2) / (1 - etaEff l z) ^ 3 = H
  rw [← a3, ← a4]
  generalize x ^ (3 - l) = b
  generalize x ^ (4 - l) = c
  generalize x ^ l = a
  field_simp
  ring

private theorem bracket_18_6 (x : ℝ) (hx : 1 ≤ x) :
    0 < x ^ (2 * 6 : ℝ) * suth (2 * 6) 0.8 x - 2 * (x ^ (6 + 18 : ℝ) * suth (6 + 18) 0.8 x)
      + x ^ (2 * 18 : ℝ) * suth (2 * 18) 0.8 x := by
  have h0 : 0 < x := by linarith
  rw [suth_pow _ _ x h0 (by norm_num) (by norm_num), suth_pow _ _ x h0 (by norm_num) (by norm_num),
    suth_pow _ _ x h0 (by norm_num) (by norm_num)]
  have e12 : x ^ (2 * 6 : ℝ) = x ^ 12 := by
    rw [show (2 * 6 : ℝ) = ((12 : ℕ) : ℝ) by norm_num, Real.rpow_natCast]
  have e24 : x ^ (6 + 18 : ℝ) = x ^ 24 := by
    rw [show (6 + 18 : ℝ) = ((24 : ℕ) : ℝ) by norm_num, Real.rpow_natCast]
  have e36 : x ^ (2 * 18 : ℝ) = x ^ 36 := by
    rw [show (2 * 18 : ℝ) = ((36 : ℕ) : ℝ) by norm_num, Real.rpow_natCast]
  rw [e12, e24, e36]
  have A12 : (-3.973 : ℝ) ≤ (((1 - (0.8 : ℝ) / 2) / (1 - 0.8) ^ 3 - (1 - etaEff (2 * 6) 0.8 / 2) / (1 - etaEff (2 * 6) 0.8) ^ 3) / (2 * 6 - 3)
        - 9 * 0.8 * (1 + 0.8) / (2 * (1 - 0.8) ^ 3) / ((2 * 6 - 3) * (2 * 6 - 4))) := by
    simp only [etaEff, ceff, cklCoef, Matrix.cons_val]; norm_num
  have A24 : (((1 - (0.8 : ℝ) / 2) / (1 - 0.8) ^ 3 - (1 - etaEff (6 + 18) 0.8 / 2) / (1 - etaEff (6 + 18) 0.8) ^ 3) / (6 + 18 - 3)
        - 9 * 0.8 * (1 + 0.8) / (2 * (1 - 0.8) ^ 3) / ((6 + 18 - 3) * (6 + 18 - 4))) ≤ 0.628 := by
    simp only [etaEff, ceff, cklCoef, Matrix.cons_val]; norm_num
  have A36 : (0.6439 : ℝ) ≤ (((1 - (0.8 : ℝ) / 2) / (1 - 0.8) ^ 3 - (1 - etaEff (2 * 18) 0.8 / 2) / (1 - etaEff (2 * 18) 0.8) ^ 3) / (2 * 18 - 3)
        - 9 * 0.8 * (1 + 0.8) / (2 * (1 - 0.8) ^ 3) / ((2 * 18 - 3) * (2 * 18 - 4))) := by
    simp only [etaEff, ceff, cklCoef, Matrix.cons_val]; norm_num
  generalize (((1 - (0.8 : ℝ) / 2) / (1 - 0.8) ^ 3 - (1 - etaEff (2 * 6) 0.8 / 2) / (1 - etaEff (2 * 6) 0.8) ^ 3) / (2 * 6 - 3)
        - 9 * 0.8 * (1 + 0.8) / (2 * (1 - 0.8) ^ 3) / ((2 * 6 - 3) * (2 * 6 - 4))) = a at *
  generalize (((1 - (0.8 : ℝ) / 2) / (1 - 0.8) ^ 3 - (1 - etaEff (6 + 18) 0.8 / 2) / (1 - etaEff (6 + 18) 0.8) ^ 3) / (6 + 18 - 3)
        - 9 * 0.8 * (1 + 0.8) / (2 * (1 - 0.8) ^ 3) / ((6 + 18 - 3) * (6 + 18 - 4))) = b at *
  generalize (((1 - (0.8 : ℝ) / 2) / (1 - 0.8) ^ 3 - (1 - etaEff (2 * 18) 0.8 / 2) / (1 - etaEff (2 * 18) 0.8) ^ 3) / (2 * 18 - 3)
        - 9 * 0.8 * (1 + 0.8) / (2 * (1 - 0.8) ^ 3) / ((2 * 18 - 3) * (2 * 18 - 4))) = c at *
  have p12 := mul_le_mul_of_nonneg_left A12 (by positivity : 0 ≤ x ^ 12)
  have p24 := mul_le_mul_of_nonneg_left A24 (by positivity : 0 ≤ x ^ 24)
  have p36 := mul_le_mul_of_nonneg_left A36 (by positivity : 0 ≤ x ^ 36)
  have p3 : 0 < x ^ 3 := by positivity
  have main : 0 < x ^ 12 * (-3.973) - 2 * (x ^ 24 * 0.628) + x ^ 36 * 0.6439 + 45.5625 * x ^ 4 - 40.866 * x ^ 3 := by
    obtain ⟨t, ht, rfl⟩ : ∃ t, 0 ≤ t ∧ x = 1 + t := ⟨x - 1, by linarith, by ring⟩
    have q : 0 ≤ (12531/2500) - (1311/25) * t + (661313/500) * t ^ 2 := by nlinarith [sq_nonneg (t - 1/50)]
    have e : (1 + t) ^ 12 * (-3.973) - 2 * ((1 + t) ^ 24 * 0.628) + (1 + t) ^ 36 * 0.6439 + 45.5625 * (1 + t) ^ 4
        - 40.866 * (1 + t) ^ 3 = (557/5000) + t * ((12531/2500) - (1311/25) * t + (661313/500) * t ^ 2)
        + (
          (22661601/1000) * t ^ 4 + (116383443/625) * t ^ 5 + (1351824551/1250) * t ^ 6 + (617152239/125) * t ^ 7 +
          (3711782943/200) * t ^ 8 + (14743939727/250) * t ^ 9 + (403018292061/2500) * t ^ 10 + (479654156943/1250) * t
          ^ 11 + (802558847121/1000) * t ^ 12 + (185597783322/125) * t ^ 13 + (305246553693/125) * t ^ 14 +
          (89588255834/25) * t ^ 15 + (4704615100053/1000) * t ^ 16 + (1383873338529/250) * t ^ 17 + (2921655283547/500)
          * t ^ 18 + (1383968668929/250) * t ^ 19 + (4705525505373/1000) * t ^ 20 + (89629247906/25) * t ^ 21 +
          (305554427553/125) * t ^ 22 + (185989674162/125) * t ^ 23 + (402977634887/500) * t ^ 24 + (241786581309/625) *
          t ^ 25 + (204588645723/1250) * t ^ 26 + (7577357249/125) * t ^ 27 + (9742316463/500) * t ^ 28 +
          (671883894/125) * t ^ 29 + (783864543/625) * t ^ 30 + (151715718/625) * t ^ 31 + (75857859/2000) * t ^ 32 +
          (2298723/500) * t ^ 33 + (405657/1000) * t ^ 34 + (57951/2500) * t ^ 35 + (6439/10000) * t ^ 36) := by
      ring
    rw [e]
    clear e
    generalize (12531/2500) - (1311/25) * t + (661313/500) * t ^ 2 = r at *
    clear * - ht q
    positivity
  norm_num at main p12 p24 p36 ⊢
  linarith

/-! ## A state -/

variable {n m : ℕ}

private theorem alpha_18_6 : 0.69 ≤ alphaOf 18 6 ∧ alphaOf 18 6 ≤ 0.694 := by
  have h3 : (18 / 6 : ℝ) ^ (6 / (18 - 6) : ℝ) = √3 := by rw [Real.sqrt_eq_rpow]; norm_num
  unfold alphaOf prefactor
  rw [h3]
  have a : (1.73 : ℝ) ≤ √3 := Real.le_sqrt_of_sq_le (by norm_num)
  have b : √3 ≤ 1.735 := (Real.sqrt_le_left (by norm_num)).2 (by norm_num)
  constructor <;> norm_num at * <;> linarith

private theorem chi_18_6 (zs : ℝ) (hz : 0 ≤ zs) : 0 < 1 + chi zs (alphaOf 18 6) := by
  obtain ⟨h0, h1⟩ := alpha_18_6
  generalize alphaOf 18 6 = α at *
  have hα : 0 ≤ α := by linarith
  have f0 : 0 ≤ f 0 α := by
    refine div_nonneg ?_ (c115_den_pos 0 (by decide) α hα).le
    simp only [fmNum, phimn, Matrix.cons_val]
    nlinarith [mul_nonneg (sub_nonneg.2 h0) (sub_nonneg.2 h1), mul_nonneg hα (mul_nonneg (sub_nonneg.2 h0) (sub_nonneg.2 h1))]
  have f1 : 0 ≤ f 1 α := by
    refine div_nonneg ?_ (c115_den_pos 1 (by decide) α hα).le
    simp only [fmNum, phimn, Matrix.cons_val]
    nlinarith [mul_nonneg (sub_nonneg.2 h0) (sub_nonneg.2 h1), mul_nonneg hα (mul_nonneg (sub_nonneg.2 h0) (sub_nonneg.2 h1))]
  have f2 : 0 ≤ f 2 α := by
    refine div_nonneg ?_ (c115_den_pos 2 (by decide) α hα).le
    simp only [fmNum, phimn, Matrix.cons_val]
    nlinarith [mul_nonneg (sub_nonneg.2 h0) (sub_nonneg.2 h1), mul_nonneg hα (mul_nonneg (sub_nonneg.2 h0) (sub_nonneg.2 h1))]
  unfold chi
  positivity

/-- **C153, violated** (state): in a fluid of groups with exponents 18 and 6 and the usual arithmetic mean of the diameters,
`Amonomer` accepts at every temperature a density at which the second-order term is positive. -/
theorem c153_violated_mie (M T : ℝ) (P : Mie n m) (x : Fin n → ℝ) (h : Phys P T x) (hM : 0 < M)
    (hlr : ∀ k l, P.lr k l = 18) (hla : ∀ k l, P.la k l = 6) (hσ : ∀ k l, P.σ k l = (P.bσ k + P.bσ l) / 2) :
    ∃ ρ > 0, (∃ out, amonomer M P [ρ] T x = .ok out) ∧ 0 < asecond M P ρ T x := by
  classical
  have hpi := Real.pi_pos
  have hC : 0 < cmol2seg P.g x := h.cmol_pos
  have hdkl : ∀ k l, 0 < dkl P T k l := h.dkl_pos
  have hx1 : ∀ k l, 1 ≤ x0kl P T k l := fun k l => by
    have a := c60_diameter_lt_sigma _ _ _ _ _ (h.bε k) (h.bσ k) h.T (h.bla k) (h.blr k)
    have b := c60_diameter_lt_sigma _ _ _ _ _ (h.bε l) (h.bσ l) h.T (h.bla l) (h.blr l)
    unfold x0kl
    rw [le_div_iff₀ (hdkl k l), one_mul, hσ]
    show (dk P T k + dk P T l) / 2 ≤ _
    unfold dk
    linarith
  obtain ⟨-, hnn, hone⟩ := c17_xskl P.g x h.x0 h.ν h.V h.S hC.ne'
  have hD : 0 < ∑ k, ∑ l, xskl P.g x k l * dkl P T k l ^ 3 := c18_pos P.g x h.x0 h.ν h.V h.S hC.ne' _ hdkl
  set ρ := densityMax M (cmol2seg P.g x) (xskl P.g x) (dkl P T) 0.8 with hρ
  have hρ0 : 0 < ρ := by rw [hρ]; unfold densityMax; positivity
  have hz : zx M P ρ T x = 0.8 := c18_at_density_max M _ _ _ 0.8 hM.ne' hC.ne' hD.ne'
  have hmax : densityMax M (cmol2seg P.g x) (xskl P.g x) (dkl P T) 1 = 1 / 0.8 * ρ := by
    rw [hρ]; unfold densityMax; ring
  refine ⟨ρ, hρ0, ⟨[ahs M P ρ T x + afirst M P ρ T x + asecond M P ρ T x + athird M P ρ T x], ?_⟩, ?_⟩
  · unfold amonomer
    have h1 : ¬ densityMax M (cmol2seg P.g x) (xskl P.g x) (dkl P T) 1 ≤ ρ := by
      rw [hmax]; norm_num; linarith
    simp only [List.all_cons, List.all_nil, List.any_cons, List.any_nil, decide_eq_false h1, decide_eq_false (not_lt.2 hρ0.le),
      Bool.false_and, Bool.or_false, Bool.false_eq_true, if_false]
    rfl
  · have hzs : 0 ≤ zxstar M P ρ x := by
      have : 0 ≤ ∑ k, ∑ l, xskl P.g x k l * (P.σ k l ^ 3 * M) := Finset.sum_nonneg fun k _ => Finset.sum_nonneg fun l _ =>
        mul_nonneg (hnn k l) (mul_nonneg (pow_nonneg (h.σ k l).le 3) hM.le)
      unfold zxstar zetax
      positivity
    have hk : 0 < khs 0.8 := by unfold khs; norm_num
    have term : ∀ k l, 0 < a2NoChi M ρ (cmol2seg P.g x) (dkl P T k l) 6 18 (x0kl P T k l) (P.ε k l) 0.8
        * (1 + chi (zxstar M P ρ x) (alphaOf 18 6)) := fun k l => by
      refine mul_pos ?_ (chi_18_6 _ hzs)
      have hd := hdkl k l
      have he := h.ε k l
      have hp : 0 < prefactor 18 6 := c58_prefactor_pos 18 6 (by norm_num) (by norm_num)
      have e : a2NoChi M ρ (cmol2seg P.g x) (dkl P T k l) 6 18 (x0kl P T k l) (P.ε k l) 0.8 =
          khs 0.8 / 2 * (2 * Real.pi * cmol2seg P.g x * ρ * P.ε k l * (dkl P T k l ^ 3 * M)) * (P.ε k l * prefactor 18 6 ^ 2) *
          (x0kl P T k l ^ (2 * 6 : ℝ) * suth (2 * 6) 0.8 (x0kl P T k l)
            - 2 * (x0kl P T k l ^ (6 + 18 : ℝ) * suth (6 + 18) 0.8 (x0kl P T k l))
            + x0kl P T k l ^ (2 * 18 : ℝ) * suth (2 * 18) 0.8 (x0kl P T k l)) := by
        unfold a2NoChi
        rw [suth_eq, suth_eq, suth_eq]
        field_simp
      rw [e]
      exact mul_pos (by positivity) (bracket_18_6 _ (hx1 k l))
    have hs : 0 < ∑ k, ∑ l, a2NoChi M ρ (cmol2seg P.g x) (dkl P T k l) 6 18 (x0kl P T k l) (P.ε k l) 0.8
        * (1 + chi (zxstar M P ρ x) (alphaOf 18 6)) * xskl P.g x k l := by
      have nn : ∀ k l, 0 ≤ a2NoChi M ρ (cmol2seg P.g x) (dkl P T k l) 6 18 (x0kl P T k l) (P.ε k l) 0.8
        * (1 + chi (zxstar M P ρ x) (alphaOf 18 6)) * xskl P.g x k l := fun k l => mul_nonneg (term k l).le (hnn k l)
      obtain ⟨k, l, hkl⟩ : ∃ k l, 0 < xskl P.g x k l := by
        by_contra hc
        push Not at hc
        have : ∑ k, ∑ l, xskl P.g x k l ≤ 0 := Finset.sum_nonpos fun k _ => Finset.sum_nonpos fun l _ => hc k l
        linarith
      exact Finset.sum_pos' (fun k _ => Finset.sum_nonneg fun l _ => nn k l) ⟨k, Finset.mem_univ k,
        Finset.sum_pos' (fun l _ => nn k l) ⟨l, Finset.mem_univ l, mul_pos (term k l) hkl⟩⟩
    have hT := h.T
    unfold asecond
    simp only [hz, hlr, hla]
    positivity

/-- A chain of two groups of different diameters with these exponents. -/
noncomputable def steepDimer : Mie 1 2 := { dimer with lr := fun _ _ => 18, blr := fun _ => 18 }

private theorem steep_avg (c : ℝ) (i : Fin 1) : avg steepDimer (fun _ _ => c) i = c := by
  simp [avg, zfrac, zki, steepDimer, dimer]; ring

theorem steepDimer_phys : Phys steepDimer 300 (fun _ => 1) :=
  { dimer_phys with
    lr := fun _ _ => by simp [steepDimer, dimer]; norm_num
    lr4 := fun _ _ => by simp [steepDimer]
    lri4 := fun i => by
      show avg steepDimer (fun _ _ => 18) i ≠ 4
      rw [steep_avg]; norm_num
    blr := fun _ => by simp [steepDimer, dimer]; norm_num }

example (M : ℝ) (hM : 0 < M) : ∃ ρ > 0, (∃ out, amonomer M steepDimer [ρ] 300 (fun _ => 1) = .ok out) ∧
    0 < asecond M steepDimer ρ 300 (fun _ => 1) :=
  c153_violated_mie M 300 steepDimer _ steepDimer_phys hM (fun _ _ => rfl) (fun _ _ => rfl) (fun _ _ => rfl)

end Verif.Props
