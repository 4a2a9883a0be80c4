import Verif.Props.ContactSW
import Verif.Props.EffectivePackingSW
import Verif.Model.MieTerms

/-!
# C152: the contact value in the chain term of the square-well fluid

`Achain` takes the logarithm of the contact value of every component with itself.  The contact value is that of hard
spheres plus a first-order correction proportional to the depth of the well over the temperature; the correction is
negative in a dense fluid, so the contact value is negative once it is cold enough, and the logarithm is not a number.

As in C151, inequalities in two variables are shown by writing polynomials with positive coefficients in the distances from
the sides of a rectangle.
-/

namespace Verif.Props
open Verif Verif.Saft Verif.GammaSW Verif.SWTerms

/-! ## Polynomials -/

/-- The effective packing fraction as a polynomial. -/
private noncomputable def swPoly (u z : ℝ) : ℝ :=
  z * (2.25855 - 1.50349 * u + 0.249434 * u ^ 2) + z ^ 2 * (-0.669270 + 1.40049 * u - 0.827739 * u ^ 2)
    + z ^ 3 * (10.1576 - 15.0427 * u + 5.30827 * u ^ 2)

/-- The first-order correction times the fourth power of the effective free fraction. -/
private noncomputable def swNum (u z : ℝ) : ℝ :=
  (1 - swPoly u z / 2) * (1 - swPoly u z) + (u ^ 3 - 1) * (2.5 - swPoly u z) *
    (u / 3 * (z * (-1.50349 + 2 * 0.249434 * u) + z ^ 2 * (1.40049 - 2 * 0.827739 * u) + z ^ 3 * (-15.0427 + 2 * 5.30827 * u))
      - (z * (2.25855 - 1.50349 * u + 0.249434 * u ^ 2) + 2 * z ^ 2 * (-0.669270 + 1.40049 * u - 0.827739 * u ^ 2)
        + 3 * z ^ 3 * (10.1576 - 15.0427 * u + 5.30827 * u ^ 2)))

/-- Rectangle 1. -/
private theorem chain_0 (u z : ℝ) (hu0 : 6/5 ≤ u) (hu1 : u ≤ 2) (hz0 : 0 ≤ z) (hz1 : z ≤ 13/40) :
    1/1000 ≤ (399/500 + 47/10 * z) * (4 * (93/100) ^ 3 * (1 - swPoly u z) - 3 * (93/100) ^ 4) + 2 * swNum u z := by
  have ha : 0 ≤ u - 6/5 := by linarith
  have hb : 0 ≤ 2 - u := by linarith
  have hd : 0 ≤ 13/40 - z := by linarith
  obtain ⟨q0, e0⟩ : ∃ q : ℝ, q =
      (3469588790075/308915776) * (2 - u) ^ 7 +
      (24287121530525/308915776) * (u - 6/5) * (2 - u) ^ 6 +
      (72861364591575/308915776) * (u - 6/5) ^ 2 * (2 - u) ^ 5 +
      (121435607652625/308915776) * (u - 6/5) ^ 3 * (2 - u) ^ 4 +
      (121435607652625/308915776) * (u - 6/5) ^ 4 * (2 - u) ^ 3 +
      (72861364591575/308915776) * (u - 6/5) ^ 5 * (2 - u) ^ 2 +
      (24287121530525/308915776) * (u - 6/5) ^ 6 * (2 - u) +
      (3469588790075/308915776) * (u - 6/5) ^ 7 := ⟨_, rfl⟩
  have h0 : 0 ≤ q0 := by
    rw [e0]
    generalize u - 6/5 = a at *
    generalize 2 - u = b at *
    clear * - ha hb
    positivity
  obtain ⟨q1, e1⟩ : ∃ q : ℝ, q =
      (954877152367847717/15445788800000) * (2 - u) ^ 7 +
      (30724282636667437/74139786240) * (u - 6/5) * (2 - u) ^ 6 +
      (10968781159227201767/9267473280000) * (u - 6/5) ^ 2 * (2 - u) ^ 5 +
      (17330582497869366517/9267473280000) * (u - 6/5) ^ 3 * (2 - u) ^ 4 +
      (16405371119469238841/9267473280000) * (u - 6/5) ^ 4 * (2 - u) ^ 3 +
      (46710959534214859751/46337366400000) * (u - 6/5) ^ 5 * (2 - u) ^ 2 +
      (2979422588175301949/9267473280000) * (u - 6/5) ^ 6 * (2 - u) +
      (82638284799336619/1853494656000) * (u - 6/5) ^ 7 := ⟨_, rfl⟩
  have h1 : 0 ≤ q1 := by
    rw [e1]
    generalize u - 6/5 = a at *
    generalize 2 - u = b at *
    clear * - ha hb
    positivity
  obtain ⟨q2, e2⟩ : ∃ q : ℝ, q =
      (2114226666727567800193/15445788800000000) * (2 - u) ^ 7 +
      (8109611424086611836781/9267473280000000) * (u - 6/5) * (2 - u) ^ 6 +
      (4365161721391562000311/1853494656000000) * (u - 6/5) ^ 2 * (2 - u) ^ 5 +
      (1286092529545166790841/370698931200000) * (u - 6/5) ^ 3 * (2 - u) ^ 4 +
      (1129826708590796347837/370698931200000) * (u - 6/5) ^ 4 * (2 - u) ^ 3 +
      (3015127216813714097627/1853494656000000) * (u - 6/5) ^ 5 * (2 - u) ^ 2 +
      (186879138601085873273/370698931200000) * (u - 6/5) ^ 6 * (2 - u) +
      (5395715957319576023/74139786240000) * (u - 6/5) ^ 7 := ⟨_, rfl⟩
  have h2 : 0 ≤ q2 := by
    rw [e2]
    generalize u - 6/5 = a at *
    generalize 2 - u = b at *
    clear * - ha hb
    positivity
  obtain ⟨q3, e3⟩ : ∃ q : ℝ, q =
      (9534433210703138551521/61783155200000000) * (2 - u) ^ 7 +
      (34732179418662329805481/37069893120000000) * (u - 6/5) * (2 - u) ^ 6 +
      (17477477038179100230599/7413978624000000) * (u - 6/5) ^ 2 * (2 - u) ^ 5 +
      (23707610209817105458777/7413978624000000) * (u - 6/5) ^ 3 * (2 - u) ^ 4 +
      (254553461738370316563/98853048320000) * (u - 6/5) ^ 4 * (2 - u) ^ 3 +
      (9626091896241103755679/7413978624000000) * (u - 6/5) ^ 5 * (2 - u) ^ 2 +
      (617845582250041431721/1482795724800000) * (u - 6/5) ^ 6 * (2 - u) +
      (20886807699082379371/296559144960000) * (u - 6/5) ^ 7 := ⟨_, rfl⟩
  have h3 : 0 ≤ q3 := by
    rw [e3]
    generalize u - 6/5 = a at *
    generalize 2 - u = b at *
    clear * - ha hb
    positivity
  obtain ⟨q4, e4⟩ : ∃ q : ℝ, q =
      (1131427802568565089857909/12356631040000000000) * (2 - u) ^ 7 +
      (3905532753491808903326093/7413978624000000000) * (u - 6/5) * (2 - u) ^ 6 +
      (613911002049868076785441/494265241600000000) * (u - 6/5) ^ 2 * (2 - u) ^ 5 +
      (31219569087058213657927/19770609664000000) * (u - 6/5) ^ 3 * (2 - u) ^ 4 +
      (14671478757074198717929/11862365798400000) * (u - 6/5) ^ 4 * (2 - u) ^ 3 +
      (13300946395933032370129/19770609664000000) * (u - 6/5) ^ 5 * (2 - u) ^ 2 +
      (1030484820812151056871/3954121932800000) * (u - 6/5) ^ 6 * (2 - u) +
      (41490378477698387221/790824386560000) * (u - 6/5) ^ 7 := ⟨_, rfl⟩
  have h4 : 0 ≤ q4 := by
    rw [e4]
    generalize u - 6/5 = a at *
    generalize 2 - u = b at *
    clear * - ha hb
    positivity
  obtain ⟨q5, e5⟩ : ∃ q : ℝ, q =
      (320930229803296833737377/12356631040000000000) * (2 - u) ^ 7 +
      (1058158215777878466045019/7413978624000000000) * (u - 6/5) * (2 - u) ^ 6 +
      (489722274656454866281819/1482795724800000000) * (u - 6/5) ^ 2 * (2 - u) ^ 5 +
      (134452447565138516385019/296559144960000000) * (u - 6/5) ^ 3 * (2 - u) ^ 4 +
      (26832601235732429905777/59311828992000000) * (u - 6/5) ^ 4 * (2 - u) ^ 3 +
      (20016101840778716800109/59311828992000000) * (u - 6/5) ^ 5 * (2 - u) ^ 2 +
      (1824837746042233696661/11862365798400000) * (u - 6/5) ^ 6 * (2 - u) +
      (22876079338549971447/790824386560000) * (u - 6/5) ^ 7 := ⟨_, rfl⟩
  have h5 : 0 ≤ q5 := by
    rw [e5]
    generalize u - 6/5 = a at *
    generalize 2 - u = b at *
    clear * - ha hb
    positivity
  obtain ⟨q6, e6⟩ : ∃ q : ℝ, q =
      (37657371379898813923/15445788800000000) * (2 - u) ^ 7 +
      (4040882722536861260821/296559144960000000) * (u - 6/5) * (2 - u) ^ 6 +
      (2280022246813916873083/59311828992000000) * (u - 6/5) ^ 2 * (2 - u) ^ 5 +
      (59846392894635878587/741397862400000) * (u - 6/5) ^ 3 * (2 - u) ^ 4 +
      (144202550264906267741/1186236579840000) * (u - 6/5) ^ 4 * (2 - u) ^ 3 +
      (257856689616435414677/2372473159680000) * (u - 6/5) ^ 5 * (2 - u) ^ 2 +
      (22751847124416275159/474494631936000) * (u - 6/5) ^ 6 * (2 - u) +
      (117965693023492227/15816487731200) * (u - 6/5) ^ 7 := ⟨_, rfl⟩
  have h6 : 0 ≤ q6 := by
    rw [e6]
    generalize u - 6/5 = a at *
    generalize 2 - u = b at *
    clear * - ha hb
    positivity
  have key : (399/500 + 47/10 * z) * (4 * (93/100) ^ 3 * (1 - swPoly u z) - 3 * (93/100) ^ 4) + 2 * swNum u z - 1/1000 =
      q0 * (13/40 - z) ^ 6 + q1 * z * (13/40 - z) ^ 5 + q2 * z ^ 2 * (13/40 - z) ^ 4 + q3 * z ^ 3 * (13/40 - z) ^ 3 + q4 * z ^ 4 * (13/40 - z) ^ 2 + q5 * z ^ 5 * (13/40 - z) + q6 * z ^ 6 := by
    rw [e0, e1, e2, e3, e4, e5, e6]
    simp only [swNum, swPoly]
    ring
  refine sub_nonneg.1 ?_
  rw [key]
  clear key e0 e1 e2 e3 e4 e5 e6
  positivity

/-- Rectangle 2. -/
private theorem chain_1 (u z : ℝ) (hu0 : 6/5 ≤ u) (hu1 : u ≤ 8/5) (hz0 : 13/40 ≤ z) (hz1 : z ≤ 39/80) :
    1/1000 ≤ (-139/50 + 81/5 * z) * (4 * (41/50) ^ 3 * (1 - swPoly u z) - 3 * (41/50) ^ 4) + 2 * swNum u z := by
  have ha : 0 ≤ u - 6/5 := by linarith
  have hb : 0 ≤ 8/5 - u := by linarith
  have hc : 0 ≤ z - 13/40 := by linarith
  have hd : 0 ≤ 39/80 - z := by linarith
  obtain ⟨q0, e0⟩ : ∃ q : ℝ, q =
      (57691828513666318923/1885472265625) * (8/5 - u) ^ 7 +
      (68256960160643428195361/362010675000000) * (u - 6/5) * (8/5 - u) ^ 6 +
      (366899583490584052850473/724021350000000) * (u - 6/5) ^ 2 * (8/5 - u) ^ 5 +
      (113556201700592221725223/144804270000000) * (u - 6/5) ^ 3 * (8/5 - u) ^ 4 +
      (111102091159628087145319/144804270000000) * (u - 6/5) ^ 4 * (8/5 - u) ^ 3 +
      (115273957367358075479457/241340450000000) * (u - 6/5) ^ 5 * (8/5 - u) ^ 2 +
      (5239039628512218920779/30167556250000) * (u - 6/5) ^ 6 * (8/5 - u) +
      (1682374456472963691157/60335112500000) * (u - 6/5) ^ 7 := ⟨_, rfl⟩
  have h0 : 0 ≤ q0 := by
    rw [e0]
    generalize u - 6/5 = a at *
    generalize 8/5 - u = b at *
    clear * - ha hb
    positivity
  obtain ⟨q1, e1⟩ : ∃ q : ℝ, q =
      (503650046029560364258823/3016755625000000) * (8/5 - u) ^ 7 +
      (9622438381114294492091219/9050266875000000) * (u - 6/5) * (8/5 - u) ^ 6 +
      (54471169218035672477851027/18100533750000000) * (u - 6/5) ^ 2 * (8/5 - u) ^ 5 +
      (18079685110267508516407387/3620106750000000) * (u - 6/5) ^ 3 * (8/5 - u) ^ 4 +
      (19137883937588983818301741/3620106750000000) * (u - 6/5) ^ 4 * (8/5 - u) ^ 3 +
      (21356935533484714777432613/6033511250000000) * (u - 6/5) ^ 5 * (8/5 - u) ^ 2 +
      (4104291914982842043944089/3016755625000000) * (u - 6/5) ^ 6 * (8/5 - u) +
      (170631764324016090614959/754188906250000) * (u - 6/5) ^ 7 := ⟨_, rfl⟩
  have h1 : 0 ≤ q1 := by
    rw [e1]
    generalize u - 6/5 = a at *
    generalize 8/5 - u = b at *
    clear * - ha hb
    positivity
  obtain ⟨q2, e2⟩ : ∃ q : ℝ, q =
      (1087163141974392918933127/3016755625000000) * (8/5 - u) ^ 7 +
      (87711738530661570546674749/36201067500000000) * (u - 6/5) * (8/5 - u) ^ 6 +
      (178345507487803010300751189/24134045000000000) * (u - 6/5) ^ 2 * (8/5 - u) ^ 5 +
      (64519691805588499547974359/4826809000000000) * (u - 6/5) ^ 3 * (8/5 - u) ^ 4 +
      (222315769356604255831458161/14480427000000000) * (u - 6/5) ^ 4 * (8/5 - u) ^ 3 +
      (264512621066758626861677723/24134045000000000) * (u - 6/5) ^ 5 * (8/5 - u) ^ 2 +
      (6629672689642953905839893/1508377812500000) * (u - 6/5) ^ 6 * (8/5 - u) +
      (2257923386929353567430389/3016755625000000) * (u - 6/5) ^ 7 := ⟨_, rfl⟩
  have h2 : 0 ≤ q2 := by
    rw [e2]
    generalize u - 6/5 = a at *
    generalize 8/5 - u = b at *
    clear * - ha hb
    positivity
  obtain ⟨q3, e3⟩ : ∃ q : ℝ, q =
      (2329672735373550062498889/6033511250000000) * (8/5 - u) ^ 7 +
      (51641912429994226112767967/18100533750000000) * (u - 6/5) * (8/5 - u) ^ 6 +
      (350801950423698029539704461/36201067500000000) * (u - 6/5) ^ 2 * (8/5 - u) ^ 5 +
      (140432711992964090423574041/7240213500000000) * (u - 6/5) ^ 3 * (8/5 - u) ^ 4 +
      (174600454980086160925440563/7240213500000000) * (u - 6/5) ^ 4 * (8/5 - u) ^ 3 +
      (219048452169955568748535359/12067022500000000) * (u - 6/5) ^ 5 * (8/5 - u) ^ 2 +
      (45297229879665515222551127/6033511250000000) * (u - 6/5) ^ 6 * (8/5 - u) +
      (3915675483054046506228299/3016755625000000) * (u - 6/5) ^ 7 := ⟨_, rfl⟩
  have h3 : 0 ≤ q3 := by
    rw [e3]
    generalize u - 6/5 = a at *
    generalize 8/5 - u = b at *
    clear * - ha hb
    positivity
  obtain ⟨q4, e4⟩ : ∃ q : ℝ, q =
      (312009980165671429543931/1508377812500000) * (8/5 - u) ^ 7 +
      (264672650314454954095264651/144804270000000000) * (u - 6/5) * (8/5 - u) ^ 6 +
      (2094652042031703298294956383/289608540000000000) * (u - 6/5) ^ 2 * (8/5 - u) ^ 5 +
      (937295771919439150558106873/57921708000000000) * (u - 6/5) ^ 3 * (8/5 - u) ^ 4 +
      (417114064786694936006761563/19307236000000000) * (u - 6/5) ^ 4 * (8/5 - u) ^ 3 +
      (1635502939261170742201153327/96536180000000000) * (u - 6/5) ^ 5 * (8/5 - u) ^ 2 +
      (86347405595113168991831189/12067022500000000) * (u - 6/5) ^ 6 * (8/5 - u) +
      (30117513892037781381339397/24134045000000000) * (u - 6/5) ^ 7 := ⟨_, rfl⟩
  have h4 : 0 ≤ q4 := by
    rw [e4]
    generalize u - 6/5 = a at *
    generalize 8/5 - u = b at *
    clear * - ha hb
    positivity
  obtain ⟨q5, e5⟩ : ∃ q : ℝ, q =
      (2204411807662471921796687/48268090000000000) * (8/5 - u) ^ 7 +
      (87351812318323298672270711/144804270000000000) * (u - 6/5) * (8/5 - u) ^ 6 +
      (853562979591370906068725363/289608540000000000) * (u - 6/5) ^ 2 * (8/5 - u) ^ 5 +
      (427352823056786780522366003/57921708000000000) * (u - 6/5) ^ 3 * (8/5 - u) ^ 4 +
      (201670332523401099033679343/19307236000000000) * (u - 6/5) ^ 4 * (8/5 - u) ^ 3 +
      (814248353404860054234043197/96536180000000000) * (u - 6/5) ^ 5 * (8/5 - u) ^ 2 +
      (174215252109412328158480241/48268090000000000) * (u - 6/5) ^ 6 * (8/5 - u) +
      (1906303500397153051423949/3016755625000000) * (u - 6/5) ^ 7 := ⟨_, rfl⟩
  have h5 : 0 ≤ q5 := by
    rw [e5]
    generalize u - 6/5 = a at *
    generalize 8/5 - u = b at *
    clear * - ha hb
    positivity
  obtain ⟨q6, e6⟩ : ∃ q : ℝ, q =
      (44353975691875868918909/48268090000000000) * (8/5 - u) ^ 7 +
      (15498503932698351790135461/193072360000000000) * (u - 6/5) * (8/5 - u) ^ 6 +
      (199950015382477966666338763/386144720000000000) * (u - 6/5) ^ 2 * (8/5 - u) ^ 5 +
      (110849865027293533910420753/77228944000000000) * (u - 6/5) ^ 3 * (8/5 - u) ^ 4 +
      (163971889455373805164781029/77228944000000000) * (u - 6/5) ^ 4 * (8/5 - u) ^ 3 +
      (674758621217126750858948541/386144720000000000) * (u - 6/5) ^ 5 * (8/5 - u) ^ 2 +
      (18170581929205234041033481/24134045000000000) * (u - 6/5) ^ 6 * (8/5 - u) +
      (3182257774412233897908019/24134045000000000) * (u - 6/5) ^ 7 := ⟨_, rfl⟩
  have h6 : 0 ≤ q6 := by
    rw [e6]
    generalize u - 6/5 = a at *
    generalize 8/5 - u = b at *
    clear * - ha hb
    positivity
  have key : (-139/50 + 81/5 * z) * (4 * (41/50) ^ 3 * (1 - swPoly u z) - 3 * (41/50) ^ 4) + 2 * swNum u z - 1/1000 =
      q0 * (39/80 - z) ^ 6 + q1 * (z - 13/40) * (39/80 - z) ^ 5 + q2 * (z - 13/40) ^ 2 * (39/80 - z) ^ 4 + q3 * (z - 13/40) ^ 3 * (39/80 - z) ^ 3 + q4 * (z - 13/40) ^ 4 * (39/80 - z) ^ 2 + q5 * (z - 13/40) ^ 5 * (39/80 - z) + q6 * (z - 13/40) ^ 6 := by
    rw [e0, e1, e2, e3, e4, e5, e6]
    simp only [swNum, swPoly]
    ring
  refine sub_nonneg.1 ?_
  rw [key]
  clear key e0 e1 e2 e3 e4 e5 e6
  positivity

/-- Rectangle 3. -/
private theorem chain_2 (u z : ℝ) (hu0 : 8/5 ≤ u) (hu1 : u ≤ 2) (hz0 : 13/40 ≤ z) (hz1 : z ≤ 39/80) :
    1/1000 ≤ (-139/50 + 81/5 * z) * (4 * (97/100) ^ 3 * (1 - swPoly u z) - 3 * (97/100) ^ 4) + 2 * swNum u z := by
  have ha : 0 ≤ u - 8/5 := by linarith
  have hb : 0 ≤ 2 - u := by linarith
  have hc : 0 ≤ z - 13/40 := by linarith
  have hd : 0 ≤ 39/80 - z := by linarith
  obtain ⟨q0, e0⟩ : ∃ q : ℝ, q =
      (1753802740594740441157/60335112500000) * (2 - u) ^ 7 +
      (360521156162364548991/1508377812500) * (u - 8/5) * (2 - u) ^ 6 +
      (8123678914456815672537/9653618000000) * (u - 8/5) ^ 2 * (2 - u) ^ 5 +
      (9450930638148389960183/5792170800000) * (u - 8/5) ^ 3 * (2 - u) ^ 4 +
      (2164685180327061134611/1158434160000) * (u - 8/5) ^ 4 * (2 - u) ^ 3 +
      (290897731719166627789/231686832000) * (u - 8/5) ^ 5 * (2 - u) ^ 2 +
      (421652991778398073/926747328) * (u - 8/5) ^ 6 * (2 - u) +
      (26239431752286651/386144720) * (u - 8/5) ^ 7 := ⟨_, rfl⟩
  have h0 : 0 ≤ q0 := by
    rw [e0]
    generalize u - 8/5 = a at *
    generalize 2 - u = b at *
    clear * - ha hb
    positivity
  obtain ⟨q1, e1⟩ : ∃ q : ℝ, q =
      (176442285867077056927459/754188906250000) * (2 - u) ^ 7 +
      (1186661627396578170848723/603351125000000) * (u - 8/5) * (2 - u) ^ 6 +
      (1686410680648557616341077/241340450000000) * (u - 8/5) ^ 2 * (2 - u) ^ 5 +
      (1961814528329097534372977/144804270000000) * (u - 8/5) ^ 3 * (2 - u) ^ 4 +
      (446478680041703216004967/28960854000000) * (u - 8/5) ^ 4 * (2 - u) ^ 3 +
      (59338115600010387536659/5792170800000) * (u - 8/5) ^ 5 * (2 - u) ^ 2 +
      (2117809342292463521719/579217080000) * (u - 8/5) ^ 6 * (2 - u) +
      (20669626356971357289/38614472000) * (u - 8/5) ^ 7 := ⟨_, rfl⟩
  have h1 : 0 ≤ q1 := by
    rw [e1]
    generalize u - 8/5 = a at *
    generalize 2 - u = b at *
    clear * - ha hb
    positivity
  obtain ⟨q2, e2⟩ : ∃ q : ℝ, q =
      (2326641225687079173805389/3016755625000000) * (2 - u) ^ 7 +
      (990789874099325420492283/150837781250000) * (u - 8/5) * (2 - u) ^ 6 +
      (22614135601973666854545587/965361800000000) * (u - 8/5) ^ 2 * (2 - u) ^ 5 +
      (5248630663197146971378181/115843416000000) * (u - 8/5) ^ 3 * (2 - u) ^ 4 +
      (1186306433026213519277333/23168683200000) * (u - 8/5) ^ 4 * (2 - u) ^ 3 +
      (52003921469973708436541/1544578880000) * (u - 8/5) ^ 5 * (2 - u) ^ 2 +
      (1829793351626445248427/154457888000) * (u - 8/5) ^ 6 * (2 - u) +
      (13139304346716928343/7722894400) * (u - 8/5) ^ 7 := ⟨_, rfl⟩
  have h2 : 0 ≤ q2 := by
    rw [e2]
    generalize u - 8/5 = a at *
    generalize 2 - u = b at *
    clear * - ha hb
    positivity
  obtain ⟨q3, e3⟩ : ∃ q : ℝ, q =
      (4038699789747864150415799/3016755625000000) * (2 - u) ^ 7 +
      (13844558062316084575743249/1206702250000000) * (u - 8/5) * (2 - u) ^ 6 +
      (19748190793255755256450671/482680900000000) * (u - 8/5) ^ 2 * (2 - u) ^ 5 +
      (4563730963975166391114059/57921708000000) * (u - 8/5) ^ 3 * (2 - u) ^ 4 +
      (204748120542479957740373/2316868320000) * (u - 8/5) ^ 4 * (2 - u) ^ 3 +
      (26643833947705383841373/463373664000) * (u - 8/5) ^ 5 * (2 - u) ^ 2 +
      (1540610532284898172757/77228944000) * (u - 8/5) ^ 6 * (2 - u) +
      (130209743429718618461/46337366400) * (u - 8/5) ^ 7 := ⟨_, rfl⟩
  have h3 : 0 ≤ q3 := by
    rw [e3]
    generalize u - 8/5 = a at *
    generalize 2 - u = b at *
    clear * - ha hb
    positivity
  obtain ⟨q4, e4⟩ : ∃ q : ℝ, q =
      (31206637698128721676839397/24134045000000000) * (2 - u) ^ 7 +
      (13388208272438421442473209/1206702250000000) * (u - 8/5) * (2 - u) ^ 6 +
      (152339485727895969992915863/3861447200000000) * (u - 8/5) ^ 2 * (2 - u) ^ 5 +
      (11667556340228799517190207/154457888000000) * (u - 8/5) ^ 3 * (2 - u) ^ 4 +
      (7787518217445295240429289/92674732800000) * (u - 8/5) ^ 4 * (2 - u) ^ 3 +
      (5012245134845756330087243/92674732800000) * (u - 8/5) ^ 5 * (2 - u) ^ 2 +
      (57137059327655348434169/3089157760000) * (u - 8/5) ^ 6 * (2 - u) +
      (1183307414646702615481/463373664000) * (u - 8/5) ^ 7 := ⟨_, rfl⟩
  have h4 : 0 ≤ q4 := by
    rw [e4]
    generalize u - 8/5 = a at *
    generalize 2 - u = b at *
    clear * - ha hb
    positivity
  obtain ⟨q5, e5⟩ : ∃ q : ℝ, q =
      (1989600941244651316986449/3016755625000000) * (2 - u) ^ 7 +
      (54499333598561086790596867/9653618000000000) * (u - 8/5) * (2 - u) ^ 6 +
      (77136821197049335862523693/3861447200000000) * (u - 8/5) ^ 2 * (2 - u) ^ 5 +
      (5867277000977199660948783/154457888000000) * (u - 8/5) ^ 3 * (2 - u) ^ 4 +
      (3881551001704717974683507/92674732800000) * (u - 8/5) ^ 4 * (2 - u) ^ 3 +
      (2470147476552207762021539/92674732800000) * (u - 8/5) ^ 5 * (2 - u) ^ 2 +
      (83221795149831627114331/9267473280000) * (u - 8/5) ^ 6 * (2 - u) +
      (2249843168712887510747/1853494656000) * (u - 8/5) ^ 7 := ⟨_, rfl⟩
  have h5 : 0 ≤ q5 := by
    rw [e5]
    generalize u - 8/5 = a at *
    generalize 2 - u = b at *
    clear * - ha hb
    positivity
  obtain ⟨q6, e6⟩ : ∃ q : ℝ, q =
      (3351330614319256251408019/24134045000000000) * (2 - u) ^ 7 +
      (5709482526194881831810757/4826809000000000) * (u - 8/5) * (2 - u) ^ 6 +
      (64237934392477573627155909/15445788800000000) * (u - 8/5) ^ 2 * (2 - u) ^ 5 +
      (24241330088919852379690909/3089157760000000) * (u - 8/5) ^ 3 * (2 - u) ^ 4 +
      (5295174766014392604334309/617831552000000) * (u - 8/5) ^ 4 * (2 - u) ^ 3 +
      (665962627332523191338527/123566310400000) * (u - 8/5) ^ 5 * (2 - u) ^ 2 +
      (22085658839672609178589/12356631040000) * (u - 8/5) ^ 6 * (2 - u) +
      (145920186868041456899/617831552000) * (u - 8/5) ^ 7 := ⟨_, rfl⟩
  have h6 : 0 ≤ q6 := by
    rw [e6]
    generalize u - 8/5 = a at *
    generalize 2 - u = b at *
    clear * - ha hb
    positivity
  have key : (-139/50 + 81/5 * z) * (4 * (97/100) ^ 3 * (1 - swPoly u z) - 3 * (97/100) ^ 4) + 2 * swNum u z - 1/1000 =
      q0 * (39/80 - z) ^ 6 + q1 * (z - 13/40) * (39/80 - z) ^ 5 + q2 * (z - 13/40) ^ 2 * (39/80 - z) ^ 4 + q3 * (z - 13/40) ^ 3 * (39/80 - z) ^ 3 + q4 * (z - 13/40) ^ 4 * (39/80 - z) ^ 2 + q5 * (z - 13/40) ^ 5 * (39/80 - z) + q6 * (z - 13/40) ^ 6 := by
    rw [e0, e1, e2, e3, e4, e5, e6]
    simp only [swNum, swPoly]
    ring
  refine sub_nonneg.1 ?_
  rw [key]
  clear key e0 e1 e2 e3 e4 e5 e6
  positivity

/-- Rectangle 4. -/
private theorem chain_3 (u z : ℝ) (hu0 : 6/5 ≤ u) (hu1 : u ≤ 13/10) (hz0 : 39/80 ≤ z) (hz1 : z ≤ 13/20) :
    1/1000 ≤ (-1027/50 + 207/4 * z) * (4 * (69/100) ^ 3 * (1 - swPoly u z) - 3 * (69/100) ^ 4) + 2 * swNum u z := by
  have ha : 0 ≤ u - 6/5 := by linarith
  have hb : 0 ≤ 13/10 - u := by linarith
  have hc : 0 ≤ z - 39/80 := by linarith
  have hd : 0 ≤ 13/20 - z := by linarith
  obtain ⟨q0, e0⟩ : ∃ q : ℝ, q =
      (8178591412412942592702544/47136806640625) * (13/10 - u) ^ 7 +
      (60388967418910244568073817/47136806640625) * (u - 6/5) * (13/10 - u) ^ 6 +
      (1551754397743335718124105767/377094453125000) * (u - 6/5) ^ 2 * (13/10 - u) ^ 5 +
      (280386030717589895506517793/37709445312500) * (u - 6/5) ^ 3 * (13/10 - u) ^ 4 +
      (9823372868313126137849358599/1206702250000000) * (u - 6/5) ^ 4 * (13/10 - u) ^ 3 +
      (32497613378613942757763468853/6033511250000000) * (u - 6/5) ^ 5 * (13/10 - u) ^ 2 +
      (12002053454652522968668163549/6033511250000000) * (u - 6/5) ^ 6 * (13/10 - u) +
      (7618728668486016645128473097/24134045000000000) * (u - 6/5) ^ 7 := ⟨_, rfl⟩
  have h0 : 0 ≤ q0 := by
    rw [e0]
    generalize u - 6/5 = a at *
    generalize 13/10 - u = b at *
    clear * - ha hb
    positivity
  obtain ⟨q1, e1⟩ : ∃ q : ℝ, q =
      (63526216354320394256483536/47136806640625) * (13/10 - u) ^ 7 +
      (1497105613411747583111509444/141410419921875) * (u - 6/5) * (13/10 - u) ^ 6 +
      (5047963692355043771432293943/141410419921875) * (u - 6/5) ^ 2 * (13/10 - u) ^ 5 +
      (1891615899806381028753559694/28282083984375) * (u - 6/5) ^ 3 * (13/10 - u) ^ 4 +
      (11331879631798024187161023007/150837781250000) * (u - 6/5) ^ 4 * (13/10 - u) ^ 3 +
      (38120439724987399351436990779/754188906250000) * (u - 6/5) ^ 5 * (13/10 - u) ^ 2 +
      (7107564591010815037887762441/377094453125000) * (u - 6/5) ^ 6 * (13/10 - u) +
      (4530653201911941343689111273/1508377812500000) * (u - 6/5) ^ 7 := ⟨_, rfl⟩
  have h1 : 0 ≤ q1 := by
    rw [e1]
    generalize u - 6/5 = a at *
    generalize 13/10 - u = b at *
    clear * - ha hb
    positivity
  obtain ⟨q2, e2⟩ : ∃ q : ℝ, q =
      (177079658102564735075175392/47136806640625) * (13/10 - u) ^ 7 +
      (4449369524268415985005375568/141410419921875) * (u - 6/5) * (13/10 - u) ^ 6 +
      (5241631151311981516990399382/47136806640625) * (u - 6/5) ^ 2 * (13/10 - u) ^ 5 +
      (2032715120469777554071846056/9427361328125) * (u - 6/5) ^ 3 * (13/10 - u) ^ 4 +
      (18722768680038699972616557877/75418890625000) * (u - 6/5) ^ 4 * (13/10 - u) ^ 3 +
      (64094539501135274936493508019/377094453125000) * (u - 6/5) ^ 5 * (13/10 - u) ^ 2 +
      (24190179846852609560928221777/377094453125000) * (u - 6/5) ^ 6 * (13/10 - u) +
      (15542322897368841242437462781/1508377812500000) * (u - 6/5) ^ 7 := ⟨_, rfl⟩
  have h2 : 0 ≤ q2 := by
    rw [e2]
    generalize u - 6/5 = a at *
    generalize 13/10 - u = b at *
    clear * - ha hb
    positivity
  obtain ⟨q3, e3⟩ : ∃ q : ℝ, q =
      (240708537114939708793010944/47136806640625) * (13/10 - u) ^ 7 +
      (6545320255447772959477323776/141410419921875) * (u - 6/5) * (13/10 - u) ^ 6 +
      (24373571344493732350277007872/141410419921875) * (u - 6/5) ^ 2 * (13/10 - u) ^ 5 +
      (9796720746498658428112954976/28282083984375) * (u - 6/5) ^ 3 * (13/10 - u) ^ 4 +
      (11565212138907258686246368174/28282083984375) * (u - 6/5) ^ 4 * (13/10 - u) ^ 3 +
      (13432277243348507437340584426/47136806640625) * (u - 6/5) ^ 5 * (13/10 - u) ^ 2 +
      (5133028851035181616934834408/47136806640625) * (u - 6/5) ^ 6 * (13/10 - u) +
      (831696322569951718445056506/47136806640625) * (u - 6/5) ^ 7 := ⟨_, rfl⟩
  have h3 : 0 ≤ q3 := by
    rw [e3]
    generalize u - 6/5 = a at *
    generalize 13/10 - u = b at *
    clear * - ha hb
    positivity
  obtain ⟨q4, e4⟩ : ∃ q : ℝ, q =
      (172527980245380803694809088/47136806640625) * (13/10 - u) ^ 7 +
      (1733465226239512314764566784/47136806640625) * (u - 6/5) * (13/10 - u) ^ 6 +
      (20546174907989583308353205344/141410419921875) * (u - 6/5) ^ 2 * (13/10 - u) ^ 5 +
      (8571853436859484632457778752/28282083984375) * (u - 6/5) ^ 3 * (13/10 - u) ^ 4 +
      (10372692927679471771985245798/28282083984375) * (u - 6/5) ^ 4 * (13/10 - u) ^ 3 +
      (12253206071385326314691118902/47136806640625) * (u - 6/5) ^ 5 * (13/10 - u) ^ 2 +
      (4738109477030827861665559966/47136806640625) * (u - 6/5) ^ 6 * (13/10 - u) +
      (1548180884011938892369864499/94273613281250) * (u - 6/5) ^ 7 := ⟨_, rfl⟩
  have h4 : 0 ≤ q4 := by
    rw [e4]
    generalize u - 6/5 = a at *
    generalize 13/10 - u = b at *
    clear * - ha hb
    positivity
  obtain ⟨q5, e5⟩ : ∃ q : ℝ, q =
      (62689711215673020207464448/47136806640625) * (13/10 - u) ^ 7 +
      (721267129659748139874161664/47136806640625) * (u - 6/5) * (13/10 - u) ^ 6 +
      (9122953808071001122174445824/141410419921875) * (u - 6/5) ^ 2 * (13/10 - u) ^ 5 +
      (3949846835612382706585480192/28282083984375) * (u - 6/5) ^ 3 * (13/10 - u) ^ 4 +
      (4891770702111794819605264208/28282083984375) * (u - 6/5) ^ 4 * (13/10 - u) ^ 3 +
      (5867668157392410712701212592/47136806640625) * (u - 6/5) ^ 5 * (13/10 - u) ^ 2 +
      (2292647849121503639611338336/47136806640625) * (u - 6/5) ^ 6 * (13/10 - u) +
      (377260073609155344547475352/47136806640625) * (u - 6/5) ^ 7 := ⟨_, rfl⟩
  have h5 : 0 ≤ q5 := by
    rw [e5]
    generalize u - 6/5 = a at *
    generalize 13/10 - u = b at *
    clear * - ha hb
    positivity
  obtain ⟨q6, e6⟩ : ∃ q : ℝ, q =
      (1827646970225865440468992/9427361328125) * (13/10 - u) ^ 7 +
      (25019714254494920041967616/9427361328125) * (u - 6/5) * (13/10 - u) ^ 6 +
      (338303341023642178812130816/28282083984375) * (u - 6/5) ^ 2 * (13/10 - u) ^ 5 +
      (151579522577873552402003968/5656416796875) * (u - 6/5) ^ 3 * (13/10 - u) ^ 4 +
      (191549517658062201434202272/5656416796875) * (u - 6/5) ^ 4 * (13/10 - u) ^ 3 +
      (232713436043592868627643168/9427361328125) * (u - 6/5) ^ 5 * (13/10 - u) ^ 2 +
      (91695338753877363251369184/9427361328125) * (u - 6/5) ^ 6 * (13/10 - u) +
      (15174278122265555142705368/9427361328125) * (u - 6/5) ^ 7 := ⟨_, rfl⟩
  have h6 : 0 ≤ q6 := by
    rw [e6]
    generalize u - 6/5 = a at *
    generalize 13/10 - u = b at *
    clear * - ha hb
    positivity
  have key : (-1027/50 + 207/4 * z) * (4 * (69/100) ^ 3 * (1 - swPoly u z) - 3 * (69/100) ^ 4) + 2 * swNum u z - 1/1000 =
      q0 * (13/20 - z) ^ 6 + q1 * (z - 39/80) * (13/20 - z) ^ 5 + q2 * (z - 39/80) ^ 2 * (13/20 - z) ^ 4 + q3 * (z - 39/80) ^ 3 * (13/20 - z) ^ 3 + q4 * (z - 39/80) ^ 4 * (13/20 - z) ^ 2 + q5 * (z - 39/80) ^ 5 * (13/20 - z) + q6 * (z - 39/80) ^ 6 := by
    rw [e0, e1, e2, e3, e4, e5, e6]
    simp only [swNum, swPoly]
    ring
  refine sub_nonneg.1 ?_
  rw [key]
  clear key e0 e1 e2 e3 e4 e5 e6
  positivity

/-- Rectangle 5. -/
private theorem chain_4 (u z : ℝ) (hu0 : 13/10 ≤ u) (hu1 : u ≤ 7/5) (hz0 : 39/80 ≤ z) (hz1 : z ≤ 13/20) :
    1/1000 ≤ (-1027/50 + 207/4 * z) * (4 * (79/100) ^ 3 * (1 - swPoly u z) - 3 * (79/100) ^ 4) + 2 * swNum u z := by
  have ha : 0 ≤ u - 13/10 := by linarith
  have hb : 0 ≤ 7/5 - u := by linarith
  have hc : 0 ≤ z - 39/80 := by linarith
  have hd : 0 ≤ 13/20 - z := by linarith
  obtain ⟨q0, e0⟩ : ∃ q : ℝ, q =
      (8117300185225093172680473097/24134045000000000) * (7/5 - u) ^ 7 +
      (32566718905498579772898984581/12067022500000000) * (u - 13/10) * (7/5 - u) ^ 6 +
      (27756683113850282144577720651/3016755625000000) * (u - 13/10) ^ 2 * (7/5 - u) ^ 5 +
      (20869418509790384524882239877/1206702250000000) * (u - 13/10) ^ 3 * (7/5 - u) ^ 4 +
      (5844438422198087722366366139/301675562500000) * (u - 13/10) ^ 4 * (7/5 - u) ^ 3 +
      (4880158893964432874943630869/377094453125000) * (u - 13/10) ^ 5 * (7/5 - u) ^ 2 +
      (900475173114149515351704997/188547226562500) * (u - 13/10) ^ 6 * (7/5 - u) +
      (283354461359949857248997801/377094453125000) * (u - 13/10) ^ 7 := ⟨_, rfl⟩
  have h0 : 0 ≤ q0 := by
    rw [e0]
    generalize u - 13/10 = a at *
    generalize 7/5 - u = b at *
    clear * - ha hb
    positivity
  obtain ⟨q1, e1⟩ : ∃ q : ℝ, q =
      (4699647414849653502881111273/1508377812500000) * (7/5 - u) ^ 7 +
      (18869798806353199861404254029/754188906250000) * (u - 13/10) * (7/5 - u) ^ 6 +
      (64214215661427002289177365661/754188906250000) * (u - 13/10) ^ 2 * (7/5 - u) ^ 5 +
      (24054043948157469604909775611/150837781250000) * (u - 13/10) ^ 3 * (7/5 - u) ^ 4 +
      (10056345853838835450328560853/56564167968750) * (u - 13/10) ^ 4 * (7/5 - u) ^ 3 +
      (33402643585508937377911962827/282820839843750) * (u - 13/10) ^ 5 * (7/5 - u) ^ 2 +
      (6126268528583481938786864501/141410419921875) * (u - 13/10) ^ 6 * (7/5 - u) +
      (957815355197293429523416529/141410419921875) * (u - 13/10) ^ 7 := ⟨_, rfl⟩
  have h1 : 0 ≤ q1 := by
    rw [e1]
    generalize u - 13/10 = a at *
    generalize 7/5 - u = b at *
    clear * - ha hb
    positivity
  obtain ⟨q2, e2⟩ : ∃ q : ℝ, q =
      (15845579793868307084513462781/1508377812500000) * (7/5 - u) ^ 7 +
      (64070028117787809148523795913/754188906250000) * (u - 13/10) * (7/5 - u) ^ 6 +
      (13683251248843800776680945637/47136806640625) * (u - 13/10) ^ 2 * (7/5 - u) ^ 5 +
      (41091028804272448343918275771/75418890625000) * (u - 13/10) ^ 3 * (7/5 - u) ^ 4 +
      (11460114440188516548393807647/18854722656250) * (u - 13/10) ^ 4 * (7/5 - u) ^ 3 +
      (19024972823688515743541634424/47136806640625) * (u - 13/10) ^ 5 * (7/5 - u) ^ 2 +
      (20911333477915869900297609872/141410419921875) * (u - 13/10) ^ 6 * (7/5 - u) +
      (3263741150357904515193049738/141410419921875) * (u - 13/10) ^ 7 := ⟨_, rfl⟩
  have h2 : 0 ≤ q2 := by
    rw [e2]
    generalize u - 13/10 = a at *
    generalize 7/5 - u = b at *
    clear * - ha hb
    positivity
  obtain ⟨q3, e3⟩ : ∃ q : ℝ, q =
      (839674887531717536566056506/47136806640625) * (7/5 - u) ^ 7 +
      (6845732101187998920676956676/47136806640625) * (u - 13/10) * (7/5 - u) ^ 6 +
      (23516799438700183367961318034/47136806640625) * (u - 13/10) ^ 2 * (7/5 - u) ^ 5 +
      (26571964749365243246386592702/28282083984375) * (u - 13/10) ^ 3 * (7/5 - u) ^ 4 +
      (9900495717952422183104639552/9427361328125) * (u - 13/10) ^ 4 * (7/5 - u) ^ 3 +
      (98708684360492847364363865104/141410419921875) * (u - 13/10) ^ 5 * (7/5 - u) ^ 2 +
      (36172378094505062699947270304/141410419921875) * (u - 13/10) ^ 6 * (7/5 - u) +
      (5643532913820090610477925216/141410419921875) * (u - 13/10) ^ 7 := ⟨_, rfl⟩
  have h3 : 0 ≤ q3 := by
    rw [e3]
    generalize u - 13/10 = a at *
    generalize 7/5 - u = b at *
    clear * - ha hb
    positivity
  obtain ⟨q4, e4⟩ : ∃ q : ℝ, q =
      (1559258255761788748209864499/94273613281250) * (7/5 - u) ^ 7 +
      (6402433129205046840043491527/47136806640625) * (u - 13/10) * (7/5 - u) ^ 6 +
      (22098457841109107376318708268/47136806640625) * (u - 13/10) ^ 2 * (7/5 - u) ^ 5 +
      (25045526321305097211749926754/28282083984375) * (u - 13/10) ^ 3 * (7/5 - u) ^ 4 +
      (28047247815736504275966145112/28282083984375) * (u - 13/10) ^ 4 * (7/5 - u) ^ 3 +
      (93303599408504250637599437408/141410419921875) * (u - 13/10) ^ 5 * (7/5 - u) ^ 2 +
      (34203733659010887945523215808/141410419921875) * (u - 13/10) ^ 6 * (7/5 - u) +
      (5335703726992816584995523232/141410419921875) * (u - 13/10) ^ 7 := ⟨_, rfl⟩
  have h4 : 0 ≤ q4 := by
    rw [e4]
    generalize u - 13/10 = a at *
    generalize 7/5 - u = b at *
    clear * - ha hb
    positivity
  obtain ⟨q5, e5⟩ : ∃ q : ℝ, q =
      (381746151726409504467475352/47136806640625) * (7/5 - u) ^ 7 +
      (3151735532133701755173316592/47136806640625) * (u - 13/10) * (7/5 - u) ^ 6 +
      (10915085162522435181433082128/47136806640625) * (u - 13/10) ^ 2 * (7/5 - u) ^ 5 +
      (12396169558382756139049690384/28282083984375) * (u - 13/10) ^ 3 * (7/5 - u) ^ 4 +
      (4632594928533373733465235584/9427361328125) * (u - 13/10) ^ 4 * (7/5 - u) ^ 3 +
      (46256052332381748269555984768/141410419921875) * (u - 13/10) ^ 5 * (7/5 - u) ^ 2 +
      (5652340630003583128979417856/47136806640625) * (u - 13/10) ^ 6 * (7/5 - u) +
      (2644333300465606140932847872/141410419921875) * (u - 13/10) ^ 7 := ⟨_, rfl⟩
  have h5 : 0 ≤ q5 := by
    rw [e5]
    generalize u - 13/10 = a at *
    generalize 7/5 - u = b at *
    clear * - ha hb
    positivity
  obtain ⟨q6, e6⟩ : ∃ q : ℝ, q =
      (15525573292097402880305368/9427361328125) * (7/5 - u) ^ 7 +
      (128562044023026160740105968/9427361328125) * (u - 13/10) * (7/5 - u) ^ 6 +
      (445975893473016408580863872/9427361328125) * (u - 13/10) ^ 2 * (7/5 - u) ^ 5 +
      (506898905601256032751267936/5656416796875) * (u - 13/10) ^ 3 * (7/5 - u) ^ 4 +
      (189475198145808135108727936/1885472265625) * (u - 13/10) ^ 4 * (7/5 - u) ^ 3 +
      (1891509016068766253635085312/28282083984375) * (u - 13/10) ^ 5 * (7/5 - u) ^ 2 +
      (231017936220401065086593024/9427361328125) * (u - 13/10) ^ 6 * (7/5 - u) +
      (107996516663706678050774528/28282083984375) * (u - 13/10) ^ 7 := ⟨_, rfl⟩
  have h6 : 0 ≤ q6 := by
    rw [e6]
    generalize u - 13/10 = a at *
    generalize 7/5 - u = b at *
    clear * - ha hb
    positivity
  have key : (-1027/50 + 207/4 * z) * (4 * (79/100) ^ 3 * (1 - swPoly u z) - 3 * (79/100) ^ 4) + 2 * swNum u z - 1/1000 =
      q0 * (13/20 - z) ^ 6 + q1 * (z - 39/80) * (13/20 - z) ^ 5 + q2 * (z - 39/80) ^ 2 * (13/20 - z) ^ 4 + q3 * (z - 39/80) ^ 3 * (13/20 - z) ^ 3 + q4 * (z - 39/80) ^ 4 * (13/20 - z) ^ 2 + q5 * (z - 39/80) ^ 5 * (13/20 - z) + q6 * (z - 39/80) ^ 6 := by
    rw [e0, e1, e2, e3, e4, e5, e6]
    simp only [swNum, swPoly]
    ring
  refine sub_nonneg.1 ?_
  rw [key]
  clear key e0 e1 e2 e3 e4 e5 e6
  positivity

/-- Rectangle 6. -/
private theorem chain_5 (u z : ℝ) (hu0 : 7/5 ≤ u) (hu1 : u ≤ 8/5) (hz0 : 39/80 ≤ z) (hz1 : z ≤ 13/20) :
    1/1000 ≤ (-1027/50 + 207/4 * z) * (4 * (9/10) ^ 3 * (1 - swPoly u z) - 3 * (9/10) ^ 4) + 2 * swNum u z := by
  have ha : 0 ≤ u - 7/5 := by linarith
  have hb : 0 ≤ 8/5 - u := by linarith
  have hc : 0 ≤ z - 39/80 := by linarith
  have hd : 0 ≤ 13/20 - z := by linarith
  obtain ⟨q0, e0⟩ : ∃ q : ℝ, q =
      (261349771778982073673397801/48268090000000000) * (8/5 - u) ^ 7 +
      (2308919103969222997951333833/48268090000000000) * (u - 7/5) * (8/5 - u) ^ 6 +
      (8445201475731976927270748081/48268090000000000) * (u - 7/5) ^ 2 * (8/5 - u) ^ 5 +
      (3345328400274485273008882863/9653618000000000) * (u - 7/5) ^ 3 * (8/5 - u) ^ 4 +
      (973876134561020931417917393/2413404500000000) * (u - 7/5) ^ 4 * (8/5 - u) ^ 3 +
      (3344692223564347165316857101/12067022500000000) * (u - 7/5) ^ 5 * (8/5 - u) ^ 2 +
      (19646999385479216956769807/188547226562500) * (u - 7/5) ^ 6 * (8/5 - u) +
      (3122575062401159321308019/188547226562500) * (u - 7/5) ^ 7 := ⟨_, rfl⟩
  have h0 : 0 ≤ q0 := by
    rw [e0]
    generalize u - 7/5 = a at *
    generalize 8/5 - u = b at *
    clear * - ha hb
    positivity
  obtain ⟨q1, e1⟩ : ∃ q : ℝ, q =
      (895444824886204854705316529/18100533750000000) * (8/5 - u) ^ 7 +
      (7779552034720236422519718107/18100533750000000) * (u - 7/5) * (8/5 - u) ^ 6 +
      (28039978729571831432300927599/18100533750000000) * (u - 7/5) ^ 2 * (8/5 - u) ^ 5 +
      (10961842531339829380439174477/3620106750000000) * (u - 7/5) ^ 3 * (8/5 - u) ^ 4 +
      (1051083572784988236613883949/301675562500000) * (u - 7/5) ^ 4 * (8/5 - u) ^ 3 +
      (3570772119628095012367535743/1508377812500000) * (u - 7/5) ^ 5 * (8/5 - u) ^ 2 +
      (664573126253015382254388207/754188906250000) * (u - 7/5) ^ 6 * (8/5 - u) +
      (6542117589361842105126159/47136806640625) * (u - 7/5) ^ 7 := ⟨_, rfl⟩
  have h1 : 0 ≤ q1 := by
    rw [e1]
    generalize u - 7/5 = a at *
    generalize 8/5 - u = b at *
    clear * - ha hb
    positivity
  obtain ⟨q2, e2⟩ : ∃ q : ℝ, q =
      (1544326495364915841572499869/9050266875000000) * (8/5 - u) ^ 7 +
      (13328925191224407046066337377/9050266875000000) * (u - 7/5) * (8/5 - u) ^ 6 +
      (15906749920373525958042876363/3016755625000000) * (u - 7/5) ^ 2 * (8/5 - u) ^ 5 +
      (6177165791054581626969319149/603351125000000) * (u - 7/5) ^ 3 * (8/5 - u) ^ 4 +
      (1765335601275763625730850339/150837781250000) * (u - 7/5) ^ 4 * (8/5 - u) ^ 3 +
      (5959420489620725724122404523/754188906250000) * (u - 7/5) ^ 5 * (8/5 - u) ^ 2 +
      (137801272220401422093819044/47136806640625) * (u - 7/5) ^ 6 * (8/5 - u) +
      (86314915537119968092104617/188547226562500) * (u - 7/5) ^ 7 := ⟨_, rfl⟩
  have h2 : 0 ≤ q2 := by
    rw [e2]
    generalize u - 7/5 = a at *
    generalize 8/5 - u = b at *
    clear * - ha hb
    positivity
  obtain ⟨q3, e3⟩ : ∃ q : ℝ, q =
      (169363329457898565234322663/565641679687500) * (8/5 - u) ^ 7 +
      (1455896422928154539721846529/565641679687500) * (u - 7/5) * (8/5 - u) ^ 6 +
      (5189337830485591679143624853/565641679687500) * (u - 7/5) ^ 2 * (8/5 - u) ^ 5 +
      (668630065957224921252248973/37709445312500) * (u - 7/5) ^ 3 * (8/5 - u) ^ 4 +
      (570557238210992881173596809/28282083984375) * (u - 7/5) ^ 4 * (8/5 - u) ^ 3 +
      (639009326857778050017177521/47136806640625) * (u - 7/5) ^ 5 * (8/5 - u) ^ 2 +
      (235313543503141067469450458/47136806640625) * (u - 7/5) ^ 6 * (8/5 - u) +
      (36679253373782246133177036/47136806640625) * (u - 7/5) ^ 7 := ⟨_, rfl⟩
  have h3 : 0 ≤ q3 := by
    rw [e3]
    generalize u - 7/5 = a at *
    generalize 8/5 - u = b at *
    clear * - ha hb
    positivity
  obtain ⟨q4, e4⟩ : ∃ q : ℝ, q =
      (162996474413506033787610101/565641679687500) * (8/5 - u) ^ 7 +
      (1395628307743813794962611133/565641679687500) * (u - 7/5) * (8/5 - u) ^ 6 +
      (4954105331338849212887620981/565641679687500) * (u - 7/5) ^ 2 * (8/5 - u) ^ 5 +
      (1906964905173149719521135163/113128335937500) * (u - 7/5) ^ 3 * (8/5 - u) ^ 4 +
      (540137383058121560906620693/28282083984375) * (u - 7/5) ^ 4 * (8/5 - u) ^ 3 +
      (602392064924171435758382467/47136806640625) * (u - 7/5) ^ 5 * (8/5 - u) ^ 2 +
      (220896382787910893416040816/47136806640625) * (u - 7/5) ^ 6 * (8/5 - u) +
      (34287532297267871961006872/47136806640625) * (u - 7/5) ^ 7 := ⟨_, rfl⟩
  have h4 : 0 ≤ q4 := by
    rw [e4]
    generalize u - 7/5 = a at *
    generalize 8/5 - u = b at *
    clear * - ha hb
    positivity
  obtain ⟨q5, e5⟩ : ∃ q : ℝ, q =
      (20612568624471427618287874/141410419921875) * (8/5 - u) ^ 7 +
      (58551092531970250639211714/47136806640625) * (u - 7/5) * (8/5 - u) ^ 6 +
      (620724861248397108426898894/141410419921875) * (u - 7/5) ^ 2 * (8/5 - u) ^ 5 +
      (79299648360834571477241454/9427361328125) * (u - 7/5) ^ 3 * (8/5 - u) ^ 4 +
      (268393765840815319635094328/28282083984375) * (u - 7/5) ^ 4 * (8/5 - u) ^ 3 +
      (298078725232473664075293432/47136806640625) * (u - 7/5) ^ 5 * (8/5 - u) ^ 2 +
      (108851833149771862773213936/47136806640625) * (u - 7/5) ^ 6 * (8/5 - u) +
      (16825946741587110292312512/47136806640625) * (u - 7/5) ^ 7 := ⟨_, rfl⟩
  have h5 : 0 ≤ q5 := by
    rw [e5]
    generalize u - 7/5 = a at *
    generalize 8/5 - u = b at *
    clear * - ha hb
    positivity
  obtain ⟨q6, e6⟩ : ∃ q : ℝ, q =
      (860840045763131470851676/28282083984375) * (8/5 - u) ^ 7 +
      (2431295943042403928903716/9427361328125) * (u - 7/5) * (8/5 - u) ^ 6 +
      (25645097338609019913510316/28282083984375) * (u - 7/5) ^ 2 * (8/5 - u) ^ 5 +
      (3260971646641414301550076/1885472265625) * (u - 7/5) ^ 3 * (8/5 - u) ^ 4 +
      (10988003827423969146589232/5656416796875) * (u - 7/5) ^ 4 * (8/5 - u) ^ 3 +
      (12150797973322840448996368/9427361328125) * (u - 7/5) ^ 5 * (8/5 - u) ^ 2 +
      (4418381650128081223741184/9427361328125) * (u - 7/5) ^ 6 * (8/5 - u) +
      (680085562441404839963968/9427361328125) * (u - 7/5) ^ 7 := ⟨_, rfl⟩
  have h6 : 0 ≤ q6 := by
    rw [e6]
    generalize u - 7/5 = a at *
    generalize 8/5 - u = b at *
    clear * - ha hb
    positivity
  have key : (-1027/50 + 207/4 * z) * (4 * (9/10) ^ 3 * (1 - swPoly u z) - 3 * (9/10) ^ 4) + 2 * swNum u z - 1/1000 =
      q0 * (13/20 - z) ^ 6 + q1 * (z - 39/80) * (13/20 - z) ^ 5 + q2 * (z - 39/80) ^ 2 * (13/20 - z) ^ 4 + q3 * (z - 39/80) ^ 3 * (13/20 - z) ^ 3 + q4 * (z - 39/80) ^ 4 * (13/20 - z) ^ 2 + q5 * (z - 39/80) ^ 5 * (13/20 - z) + q6 * (z - 39/80) ^ 6 := by
    rw [e0, e1, e2, e3, e4, e5, e6]
    simp only [swNum, swPoly]
    ring
  refine sub_nonneg.1 ?_
  rw [key]
  clear key e0 e1 e2 e3 e4 e5 e6
  positivity

/-- Rectangle 7. -/
private theorem chain_6 (u z : ℝ) (hu0 : 8/5 ≤ u) (hu1 : u ≤ 2) (hz0 : 39/80 ≤ z) (hz1 : z ≤ 13/20) :
    1/1000 ≤ (-1027/50 + 207/4 * z) * (4 * (1) ^ 3 * (1 - swPoly u z) - 3 * (1) ^ 4) + 2 * swNum u z := by
  have ha : 0 ≤ u - 8/5 := by linarith
  have hb : 0 ≤ 2 - u := by linarith
  have hc : 0 ≤ z - 39/80 := by linarith
  have hd : 0 ≤ 13/20 - z := by linarith
  obtain ⟨q0, e0⟩ : ∃ q : ℝ, q =
      (3025013332152971596308019/24134045000000000) * (2 - u) ^ 7 +
      (5254501077853487310535757/4826809000000000) * (u - 8/5) * (2 - u) ^ 6 +
      (59884895243268037094115909/15445788800000000) * (u - 8/5) ^ 2 * (2 - u) ^ 5 +
      (22794211419682747996042909/3089157760000000) * (u - 8/5) ^ 3 * (2 - u) ^ 4 +
      (5006323267375544787137509/617831552000000) * (u - 8/5) ^ 4 * (2 - u) ^ 3 +
      (126268863762786640101203/24713262080000) * (u - 8/5) ^ 5 * (2 - u) ^ 2 +
      (20932351036090100394781/12356631040000) * (u - 8/5) ^ 6 * (2 - u) +
      (27536182297259836327/123566310400) * (u - 8/5) ^ 7 := ⟨_, rfl⟩
  have h0 : 0 ≤ q0 := by
    rw [e0]
    generalize u - 8/5 = a at *
    generalize 2 - u = b at *
    clear * - ha hb
    positivity
  obtain ⟨q1, e1⟩ : ∃ q : ℝ, q =
      (6396873910906896173876159/6033511250000000) * (2 - u) ^ 7 +
      (87435947168055461106361301/9653618000000000) * (u - 8/5) * (2 - u) ^ 6 +
      (61377794462015746634572017/1930723600000000) * (u - 8/5) ^ 2 * (2 - u) ^ 5 +
      (11529977034489643251142203/193072360000000) * (u - 8/5) ^ 3 * (2 - u) ^ 4 +
      (15018823464737778132971623/231686832000000) * (u - 8/5) ^ 4 * (2 - u) ^ 3 +
      (937400942661688267346221/23168683200000) * (u - 8/5) ^ 5 * (2 - u) ^ 2 +
      (12324947290401574803329/926747328000) * (u - 8/5) ^ 6 * (2 - u) +
      (3221785602686174008657/1853494656000) * (u - 8/5) ^ 7 := ⟨_, rfl⟩
  have h1 : 0 ≤ q1 := by
    rw [e1]
    generalize u - 8/5 = a at *
    generalize 2 - u = b at *
    clear * - ha hb
    positivity
  obtain ⟨q2, e2⟩ : ∃ q : ℝ, q =
      (85304527841289591917104617/24134045000000000) * (2 - u) ^ 7 +
      (144042534244047462530478921/4826809000000000) * (u - 8/5) * (2 - u) ^ 6 +
      (3124972641959622356392481/30167556250000) * (u - 8/5) ^ 2 * (2 - u) ^ 5 +
      (116169338550764872438859/603351125000) * (u - 8/5) ^ 3 * (2 - u) ^ 4 +
      (159757845731815045369337/772289440000) * (u - 8/5) ^ 4 * (2 - u) ^ 3 +
      (61687845387073289896123/482680900000) * (u - 8/5) ^ 5 * (2 - u) ^ 2 +
      (192625455518473049029267/4633736640000) * (u - 8/5) ^ 6 * (2 - u) +
      (4978195041907054924249/926747328000) * (u - 8/5) ^ 7 := ⟨_, rfl⟩
  have h2 : 0 ≤ q2 := by
    rw [e2]
    generalize u - 8/5 = a at *
    generalize 2 - u = b at *
    clear * - ha hb
    positivity
  obtain ⟨q3, e3⟩ : ∃ q : ℝ, q =
      (9170973491642713003606759/1508377812500000) * (2 - u) ^ 7 +
      (7664532927447090712851671/150837781250000) * (u - 8/5) * (2 - u) ^ 6 +
      (5268619856651297002788517/30167556250000) * (u - 8/5) ^ 2 * (2 - u) ^ 5 +
      (2327214413751608161892543/7240213500000) * (u - 8/5) ^ 3 * (2 - u) ^ 4 +
      (41250691223862425949451/120670225000) * (u - 8/5) ^ 4 * (2 - u) ^ 3 +
      (302499071481025841227693/1448042700000) * (u - 8/5) ^ 5 * (2 - u) ^ 2 +
      (19434163375488220511869/289608540000) * (u - 8/5) ^ 6 * (2 - u) +
      (247209335851413825529/28960854000) * (u - 8/5) ^ 7 := ⟨_, rfl⟩
  have h3 : 0 ≤ q3 := by
    rw [e3]
    generalize u - 8/5 = a at *
    generalize 2 - u = b at *
    clear * - ha hb
    positivity
  obtain ⟨q4, e4⟩ : ∃ q : ℝ, q =
      (4341621357008979948250859/754188906250000) * (2 - u) ^ 7 +
      (7186238348890842780601567/150837781250000) * (u - 8/5) * (2 - u) ^ 6 +
      (9784934807408591788113593/60335112500000) * (u - 8/5) ^ 2 * (2 - u) ^ 5 +
      (85592270682075432093287/289608540000) * (u - 8/5) ^ 3 * (2 - u) ^ 4 +
      (450346145378041076425123/1448042700000) * (u - 8/5) ^ 4 * (2 - u) ^ 3 +
      (271915676978274674844281/1448042700000) * (u - 8/5) ^ 5 * (2 - u) ^ 2 +
      (2151756333375249354001/36201067500) * (u - 8/5) ^ 6 * (2 - u) +
      (214615893898596629243/28960854000) * (u - 8/5) ^ 7 := ⟨_, rfl⟩
  have h4 : 0 ≤ q4 := by
    rw [e4]
    generalize u - 8/5 = a at *
    generalize 2 - u = b at *
    clear * - ha hb
    positivity
  obtain ⟨q5, e5⟩ : ∃ q : ℝ, q =
      (269881096592207809254883/94273613281250) * (2 - u) ^ 7 +
      (884639254003420738075843/37709445312500) * (u - 8/5) * (2 - u) ^ 6 +
      (596409560008985905265671/7541889062500) * (u - 8/5) ^ 2 * (2 - u) ^ 5 +
      (161371548978897936128233/1131283359375) * (u - 8/5) ^ 3 * (2 - u) ^ 4 +
      (44773581916318657490239/301675562500) * (u - 8/5) ^ 4 * (2 - u) ^ 3 +
      (4001228567067972137776/45251334375) * (u - 8/5) ^ 5 * (2 - u) ^ 2 +
      (82995794267100606174/3016755625) * (u - 8/5) ^ 6 * (2 - u) +
      (24224029797885489919/7240213500) * (u - 8/5) ^ 7 := ⟨_, rfl⟩
  have h5 : 0 ≤ q5 := by
    rw [e5]
    generalize u - 8/5 = a at *
    generalize 2 - u = b at *
    clear * - ha hb
    positivity
  obtain ⟨q6, e6⟩ : ∃ q : ℝ, q =
      (11055678014282959374437/18854722656250) * (2 - u) ^ 7 +
      (17937700396479382474253/3770944531250) * (u - 8/5) * (2 - u) ^ 6 +
      (5986048877970723154529/377094453125) * (u - 8/5) ^ 2 * (2 - u) ^ 5 +
      (32047405873664376194771/1131283359375) * (u - 8/5) ^ 3 * (2 - u) ^ 4 +
      (2196003180124419297862/75418890625) * (u - 8/5) ^ 4 * (2 - u) ^ 3 +
      (773373994769189573081/45251334375) * (u - 8/5) ^ 5 * (2 - u) ^ 2 +
      (31448912680655424629/6033511250) * (u - 8/5) ^ 6 * (2 - u) +
      (2225941916855212417/3620106750) * (u - 8/5) ^ 7 := ⟨_, rfl⟩
  have h6 : 0 ≤ q6 := by
    rw [e6]
    generalize u - 8/5 = a at *
    generalize 2 - u = b at *
    clear * - ha hb
    positivity
  have key : (-1027/50 + 207/4 * z) * (4 * (1) ^ 3 * (1 - swPoly u z) - 3 * (1) ^ 4) + 2 * swNum u z - 1/1000 =
      q0 * (13/20 - z) ^ 6 + q1 * (z - 39/80) * (13/20 - z) ^ 5 + q2 * (z - 39/80) ^ 2 * (13/20 - z) ^ 4 + q3 * (z - 39/80) ^ 3 * (13/20 - z) ^ 3 + q4 * (z - 39/80) ^ 4 * (13/20 - z) ^ 2 + q5 * (z - 39/80) ^ 5 * (13/20 - z) + q6 * (z - 39/80) ^ 6 := by
    rw [e0, e1, e2, e3, e4, e5, e6]
    simp only [swNum, swPoly]
    ring
  refine sub_nonneg.1 ?_
  rw [key]
  clear key e0 e1 e2 e3 e4 e5 e6
  positivity

/-- The packing fraction 0.3. -/
private theorem chain_neg (u : ℝ) (hu0 : 13/10 ≤ u) (hu1 : u ≤ 12/5) :
    1/1000 ≤ -swNum u (3/10) := by
  have key : -swNum u (3/10) - 1/1000 =
      (3581736090596259190091/97435855000000000000000) * (12/5 - u) ^ 7 +
      (233954706089810063023/190304404296875000000) * (u - 13/10) * (12/5 - u) ^ 6 +
      (129454873192199627509761/24358963750000000000000) * (u - 13/10) ^ 2 * (12/5 - u) ^ 5 +
      (10456290202825087168619/1217948187500000000000) * (u - 13/10) ^ 3 * (12/5 - u) ^ 4 +
      (3297436696611645569231/608974093750000000000) * (u - 13/10) ^ 4 * (12/5 - u) ^ 3 +
      (2736486173958635520589/3044870468750000000000) * (u - 13/10) ^ 5 * (12/5 - u) ^ 2 +
      (10884437604398926533/23788050537109375000) * (u - 13/10) ^ 6 * (12/5 - u) +
      (359987224486274219059/761217617187500000000) * (u - 13/10) ^ 7 := by
    simp only [swNum, swPoly]
    ring
  have ha : 0 ≤ u - 13/10 := by linarith
  have hb : 0 ≤ 12/5 - u := by linarith
  refine sub_nonneg.1 ?_
  rw [key]
  clear key
  generalize u - 13/10 = a at *
  generalize 12/5 - u = b at *
  positivity

/-! ## The contact value -/

/-- The first-order correction of the contact value, for a well as deep as the temperature. -/
noncomputable def correctionSW (lam z : ℝ) : ℝ :=
  g0HS lam z + (lam ^ 3 - 1) * dg0HS lam z * (lam / 3 * dzetaDlam lam z - z * dzetaEff lam z)

/-- **C152** (threshold): the contact value is positive exactly from a temperature on that is proportional to the depth of
the well. -/
theorem c152_threshold (T ε lam s t z2 z3 : ℝ) (hT : 0 < T) (hg : 0 < gHS z2 z3 s t) :
    0 < gSW T ε lam s t z2 z3 ↔ -correctionSW lam z3 * ε / gHS z2 z3 s t < T := by
  have : gSW T ε lam s t z2 z3 = gHS z2 z3 s t + ε / T * correctionSW lam z3 := rfl
  rw [this, div_lt_iff₀ hg]
  have h : gHS z2 z3 s t + ε / T * correctionSW lam z3 = (T * gHS z2 z3 s t + ε * correctionSW lam z3) / T := by field_simp
  rw [h, div_pos_iff_of_pos_right hT]
  constructor <;> intro h <;> linarith

private theorem polyNum (u z : ℝ) (h1 : 1 ≤ u) (he : swPoly u z < 1) :
    correctionSW u z = swNum u z / (1 - swPoly u z) ^ 4 := by
  have h : u ≠ 0 := by linarith
  have hz : zetaEff u z = swPoly u z := by
    simp only [zetaEff, if_pos h, cikl, cklCoef, swPoly, Matrix.cons_val]
    ring
  have hd : (1 - swPoly u z) ≠ 0 := by linarith
  have e : u / 3 * dzetaDlam u z - z * dzetaEff u z =
      u / 3 * (z * (-1.50349 + 2 * 0.249434 * u) + z ^ 2 * (1.40049 - 2 * 0.827739 * u) + z ^ 3 * (-15.0427 + 2 * 5.30827 * u))
      - (z * (2.25855 - 1.50349 * u + 0.249434 * u ^ 2) + 2 * z ^ 2 * (-0.669270 + 1.40049 * u - 0.827739 * u ^ 2)
        + 3 * z ^ 3 * (10.1576 - 15.0427 * u + 5.30827 * u ^ 2)) := by
    simp only [dzetaDlam, dzetaEff, if_pos h, cikl, cklCoef, dcklCoef, Matrix.cons_val]
    ring
  rw [correctionSW, e, g0HS, dg0HS, hz, swNum]
  generalize u / 3 * (z * (-1.50349 + 2 * 0.249434 * u) + z ^ 2 * (1.40049 - 2 * 0.827739 * u)
      + z ^ 3 * (-15.0427 + 2 * 5.30827 * u))
      - (z * (2.25855 - 1.50349 * u + 0.249434 * u ^ 2) + 2 * z ^ 2 * (-0.669270 + 1.40049 * u - 0.827739 * u ^ 2)
        + 3 * z ^ 3 * (10.1576 - 15.0427 * u + 5.30827 * u ^ 2)) = D
  generalize swPoly u z = η at *
  field_simp

private theorem zetaPoly (u z : ℝ) (h1 : 1 ≤ u) : zetaEff u z = swPoly u z := by
  have h : u ≠ 0 := by linarith
  simp only [zetaEff, if_pos h, cikl, cklCoef, swPoly, Matrix.cons_val]
  ring

/-- What a rectangle gives: a lower bound of the contact value of hard spheres, and the tangent of the fourth power. -/
private theorem box_pos {G X N l c : ℝ} (hX : 0 < X) (hl : 0 ≤ l) (hG : l ≤ G)
    (h : 1 / 1000 ≤ l * (4 * c ^ 3 * X - 3 * c ^ 4) + 2 * N) : 0 < G + 2 * (N / X ^ 4) := by
  have h4 : 4 * c ^ 3 * X - 3 * c ^ 4 ≤ X ^ 4 := by
    nlinarith [sq_nonneg (X - c), mul_nonneg (sq_nonneg (X - c)) (by positivity : 0 ≤ (X + c) ^ 2 + 2 * c ^ 2)]
  have hX4 : 0 < X ^ 4 := by positivity
  have h1 : l * (4 * c ^ 3 * X - 3 * c ^ 4) ≤ l * X ^ 4 := mul_le_mul_of_nonneg_left h4 hl
  have h2 : l * X ^ 4 ≤ G * X ^ 4 := mul_le_mul_of_nonneg_right hG hX4.le
  have : G + 2 * (N / X ^ 4) = (G * X ^ 4 + 2 * N) / X ^ 4 := by field_simp
  rw [this]
  exact div_pos (by linarith) hX4

/-- A straight line below the contact value of hard spheres. -/
private theorem line_below {z a b : ℝ} (hz : z < 1) (h : (a + b * z) * (1 - z) ^ 3 ≤ 1 - z / 2) :
    a + b * z ≤ (1 - z / 2) / (1 - z) ^ 3 := by
  rw [le_div_iff₀ (pow_pos (by linarith) 3)]
  exact h

private theorem line_a {z : ℝ} (h0 : 0 ≤ z) (h1 : z ≤ 13/40) : (399/500 + 47/10 * z) * (1 - z) ^ 3 ≤ 1 - z / 2 := by
  nlinarith [mul_nonneg h0 (sub_nonneg.2 h1), mul_nonneg h0 (sq_nonneg (z - 4/25)), sq_nonneg (z - 4/25),
    mul_nonneg (mul_nonneg h0 h0) (sq_nonneg (z - 4/25))]

private theorem line_b {z : ℝ} (h0 : 13/40 ≤ z) (h1 : z ≤ 39/80) : (-139/50 + 81/5 * z) * (1 - z) ^ 3 ≤ 1 - z / 2 := by
  nlinarith [mul_nonneg (sub_nonneg.2 h0) (sub_nonneg.2 h1), sq_nonneg (z - 2/5),
    mul_nonneg (sub_nonneg.2 h0) (sq_nonneg (z - 2/5)), mul_nonneg (mul_nonneg (sub_nonneg.2 h0) (sub_nonneg.2 h0)) (sq_nonneg (z - 2/5))]

private theorem line_c {z : ℝ} (h0 : 39/80 ≤ z) (h1 : z ≤ 13/20) : (-1027/50 + 207/4 * z) * (1 - z) ^ 3 ≤ 1 - z / 2 := by
  nlinarith [mul_nonneg (sub_nonneg.2 h0) (sub_nonneg.2 h1), sq_nonneg (z - 14/25),
    mul_nonneg (sub_nonneg.2 h0) (sq_nonneg (z - 14/25)), mul_nonneg (mul_nonneg (sub_nonneg.2 h0) (sub_nonneg.2 h0)) (sq_nonneg (z - 14/25))]

private theorem at_two (u z : ℝ) (hu0 : 6/5 ≤ u) (hu1 : u ≤ 2) (hz0 : 0 ≤ z) (hz1 : z ≤ 13/20) :
    0 < (1 - z / 2) / (1 - z) ^ 3 + 2 * (swNum u z / (1 - swPoly u z) ^ 4) := by
  have hX : 0 < 1 - swPoly u z := by
    have := c151_below_partial u z (by linarith) (by norm_num; linarith) hz0 (by norm_num; exact hz1)
    rw [zetaPoly u z (by linarith)] at this
    linarith
  have hz : z < 1 := by linarith
  rcases le_total z (13/40) with ha | ha
  · exact box_pos hX (by linarith) (line_below hz (line_a hz0 ha)) (chain_0 u z hu0 hu1 hz0 ha)
  · rcases le_total z (39/80) with hb | hb
    · have hl := line_below hz (line_b ha hb)
      rcases le_total u (8/5) with hu | hu
      · exact box_pos hX (by linarith) hl (chain_1 u z hu0 hu ha hb)
      · exact box_pos hX (by linarith) hl (chain_2 u z hu hu1 ha hb)
    · have hl := line_below hz (line_c hb hz1)
      rcases le_total u (13/10) with hu | hu
      · exact box_pos hX (by linarith) hl (chain_3 u z hu0 hu hb hz1)
      · rcases le_total u (7/5) with hv | hv
        · exact box_pos hX (by linarith) hl (chain_4 u z hu hv hb hz1)
        · rcases le_total u (8/5) with hw | hw
          · exact box_pos hX (by linarith) hl (chain_5 u z hv hw hb hz1)
          · exact box_pos hX (by linarith) hl (chain_6 u z hw hu1 hb hz1)

/-- **C152** (temperatures from half the depth on): with ranges from 1.2 to two, the contact value of spheres of one
diameter is positive at every packing fraction that `Amonomer` accepts. -/
theorem c152_positive_partial (T ε lam d z : ℝ) (hd : d ≠ 0) (hT : 0 < T) (hε : 0 ≤ ε) (h2 : ε ≤ 2 * T) (h1 : 1.2 ≤ lam)
    (hl : lam ≤ 2) (hz : 0 ≤ z) (hz1 : z ≤ 0.65) : 0 < gSW T ε lam d d (z / d) z := by
  have hl1 : (6:ℝ)/5 ≤ lam := by norm_num at h1 ⊢; exact h1
  have hz2 : z ≤ 13/20 := by norm_num at hz1 ⊢; exact hz1
  have key := at_two lam z hl1 hl hz hz2
  have hX : swPoly lam z < 1 := by
    have := c151_below_partial lam z (by linarith) (by norm_num; linarith) hz hz1
    rwa [zetaPoly lam z (by linarith)] at this
  have e : gSW T ε lam d d (z / d) z = gHS (z / d) z d d + ε / T * correctionSW lam z := rfl
  rw [e, c109_ghs_pure z d hd (by linarith), polyNum lam z (by linarith) hX]
  have hG : 0 < (1 - z / 2) / (1 - z) ^ 3 := div_pos (by linarith) (pow_pos (by linarith) 3)
  generalize (1 - z / 2) / (1 - z) ^ 3 = G at *
  generalize swNum lam z / (1 - swPoly lam z) ^ 4 = B at *
  have hr0 : 0 ≤ ε / T := div_nonneg hε hT.le
  have hr2 : ε / T ≤ 2 := by rwa [div_le_iff₀ hT]
  generalize ε / T = r at *
  rcases le_total 0 B with hB | hB
  · have := mul_nonneg hr0 hB
    linarith
  · nlinarith

/-- A well of range 1.5 as deep as 1.5 times the temperature, in a fluid of packing fraction 0.5. -/
example : 0 < gSW 200 300 1.5 3 3 (0.5 / 3) 0.5 :=
  c152_positive_partial 200 300 1.5 3 0.5 (by norm_num) (by norm_num) (by norm_num) (by norm_num) (by norm_num) (by norm_num)
    (by norm_num) (by norm_num)

/-- The correction is negative in a dense fluid. -/
theorem c152_correction (lam : ℝ) (h1 : 1.3 ≤ lam) (hl : lam ≤ 2.4) : correctionSW lam 0.3 < 0 := by
  have hX : swPoly lam 0.3 < 1 := by
    have := c151_below_partial lam 0.3 (by linarith) (by norm_num at hl ⊢; linarith) (by norm_num) (by norm_num)
    rwa [zetaPoly lam _ (by linarith)] at this
  rw [polyNum lam 0.3 (by linarith) hX]
  have h := chain_neg lam (by norm_num at h1 ⊢; exact h1) (by norm_num at hl ⊢; exact hl)
  rw [show (0.3 : ℝ) = 3 / 10 by norm_num] at *
  exact div_neg_of_neg_of_pos (by linarith) (pow_pos (by linarith) 4)

/-- **C152, violated**: at a packing fraction of 0.3 the contact value is negative below a temperature proportional to
the depth of the well, for every range from 1.3 to 2.4 and every pair of diameters. -/
theorem c152_violated_negative (ε lam s t z2 : ℝ) (hε : 0 < ε) (h1 : 1.3 ≤ lam) (hl : lam ≤ 2.4) (hg : 0 < gHS z2 0.3 s t) :
    ∃ T₀ > 0, ∀ T, 0 < T → T < T₀ → gSW T ε lam s t z2 0.3 < 0 := by
  have hc := c152_correction lam h1 hl
  refine ⟨-correctionSW lam 0.3 * ε / gHS z2 0.3 s t, div_pos (mul_pos (by linarith) hε) hg, fun T hT hlt => ?_⟩
  have e : gSW T ε lam s t z2 0.3 = gHS z2 0.3 s t + ε / T * correctionSW lam 0.3 := rfl
  rw [lt_div_iff₀ hg] at hlt
  rw [e, show gHS z2 0.3 s t + ε / T * correctionSW lam 0.3 = (T * gHS z2 0.3 s t + ε * correctionSW lam 0.3) / T by field_simp]
  exact div_neg_of_neg_of_pos (by linarith) hT

/-- Spheres of one diameter. -/
example : 0 < gHS (0.3 / 3) 0.3 3 3 := by rw [c109_ghs_pure 0.3 3 (by norm_num) (by norm_num)]; norm_num

/-- **C152, violated** (numbers): a well of range 1.5 five times as deep as the temperature, at a packing fraction of 0.3. -/
theorem c152_violated_five (d : ℝ) (hd : d ≠ 0) : gSW 100 500 1.5 d d (0.3 / d) 0.3 < 0 := by
  have e : gSW 100 500 1.5 d d (0.3 / d) 0.3 = gHS (0.3 / d) 0.3 d d + 500 / 100 * correctionSW 1.5 0.3 := rfl
  have hX : swPoly 1.5 0.3 < 1 := by unfold swPoly; norm_num
  rw [e, c109_ghs_pure 0.3 d hd (by norm_num), polyNum 1.5 0.3 (by norm_num) hX]
  simp only [swNum, swPoly]
  norm_num

/-! ## States -/

variable {n m : ℕ}

/-- Groups of one diameter and one range: the contact value of component `i` with itself. -/
private theorem gsw_uniform (M ρ T σ₀ lam : ℝ) (P : SWell n m) (x : Fin n → ℝ) (i : Fin n) (hσ : 0 < σ₀)
    (hPσ : P.σ = fun _ _ => σ₀) (hPl : P.lam = fun _ _ => lam) (hi : ∑ k, zki P i k ≠ 0) :
    gsw M P ρ T x i i = gSW T (epsii P i) lam σ₀ σ₀ (packing M ρ (cmol2seg P.g x) (xskl P.g x) P.σ / σ₀)
      (packing M ρ (cmol2seg P.g x) (xskl P.g x) P.σ) := by
  have hz : ∑ k, zfrac P i k = 1 := by
    simp only [zfrac, ← Finset.sum_div]
    exact div_self hi
  have hs : sigij P i i = σ₀ := by
    simp only [sigij, crossOf, if_true, sigii, hPσ, ← Finset.sum_mul, hz, one_mul]
    rw [← Real.rpow_natCast, ← Real.rpow_mul hσ.le]
    norm_num
  have hl : lamij P i i = lam := by
    simp only [lamij, crossOf, if_true, lamii, hPl, ← Finset.sum_mul, ← Finset.mul_sum, hz, one_mul]
  have he : epsij P i i = epsii P i := by simp [epsij, crossOf]
  have h2 : zeta M P ρ x 2 = zeta M P ρ x 3 / σ₀ := by
    simp only [zeta, moment, hPσ, ← Finset.sum_mul]
    field_simp
  unfold gsw
  rw [hs, hl, he, h2]
  rfl

/-- **C152** (accepted densities): in a fluid of groups of one diameter and one range from 1.2 to two, at a density that
`Amonomer` accepts and a temperature from half the depth of the well on, the contact value is positive. -/
theorem c152_accepted_partial (M ρ T σ₀ lam : ℝ) (P : SWell n m) (x : Fin n → ℝ) (i : Fin n) (hx : ∀ i, 0 ≤ x i)
    (hν : ∀ i k, 0 ≤ P.g.ν i k) (hV : ∀ k, 0 ≤ P.g.V k) (hS : ∀ k, 0 ≤ P.g.S k) (hM : 0 < M) (hT : 0 < T)
    (hC : 0 < cmol2seg P.g x) (hσ : 0 < σ₀) (hPσ : P.σ = fun _ _ => σ₀) (hPl : P.lam = fun _ _ => lam) (h1 : 1.2 ≤ lam)
    (hl : lam ≤ 2) (hi : ∑ k, zki P i k ≠ 0) (hε : 0 ≤ epsii P i) (h2 : epsii P i ≤ 2 * T)
    (ok : ∃ out, amonomer M P [ρ] T x = .ok out) : 0 < gsw M P ρ T x i i := by
  classical
  obtain ⟨out, ok⟩ := ok
  rw [c125_single] at ok
  have hr : ¬(densityMax M (cmol2seg P.g x) (xskl P.g x) P.σ 0.65 < ρ ∨ ρ < 0) := fun h => by
    rw [if_pos h] at ok
    cases ok
  push Not at hr
  obtain ⟨hmax, h0⟩ := hr
  rw [gsw_uniform M ρ T σ₀ lam P x i hσ hPσ hPl hi]
  have hpack := c57_sw_equal_diameters_partial M 0.65 σ₀ P.g x hx hν hV hS hM.ne' hC.ne' hσ.ne'
  rw [← hPσ] at hpack
  have hpi := Real.pi_pos
  have mono : ∀ r, packing M r (cmol2seg P.g x) (xskl P.g x) P.σ
      = r * (M * cmol2seg P.g x * ((∑ k, √(xskl P.g x k k) * P.σ k k ^ 3) * (Real.pi / 6))) := fun r => by
    simp only [packing, moment]; ring
  have hnn : 0 ≤ M * cmol2seg P.g x * ((∑ k, √(xskl P.g x k k) * P.σ k k ^ 3) * (Real.pi / 6)) := by
    have : 0 ≤ ∑ k, √(xskl P.g x k k) * P.σ k k ^ 3 :=
      Finset.sum_nonneg fun k _ => mul_nonneg (Real.sqrt_nonneg _) (by rw [hPσ]; positivity)
    positivity
  refine c152_positive_partial T _ lam σ₀ _ hσ.ne' hT hε h2 h1 hl ?_ ?_
  · rw [mono]; exact mul_nonneg h0 hnn
  · rw [← hpack, mono, mono]; exact mul_le_mul_of_nonneg_right hmax hnn

/-- **C152, violated** (state): in a fluid of groups of one diameter and one range from 1.3 to 2.4 there are densities
and temperatures that `Amonomer` accepts where the contact value in the chain term is negative. -/
theorem c152_violated_state (M σ₀ lam : ℝ) (P : SWell n m) (x : Fin n → ℝ) (i : Fin n) (hx : ∀ i, 0 ≤ x i)
    (hν : ∀ i k, 0 ≤ P.g.ν i k) (hV : ∀ k, 0 ≤ P.g.V k) (hS : ∀ k, 0 ≤ P.g.S k) (hM : 0 < M)
    (hC : 0 < cmol2seg P.g x) (hσ : 0 < σ₀) (hPσ : P.σ = fun _ _ => σ₀) (hPl : P.lam = fun _ _ => lam) (h1 : 1.3 ≤ lam)
    (hl : lam ≤ 2.4) (hi : ∑ k, zki P i k ≠ 0) (hε : 0 < epsii P i) :
    ∃ ρ > 0, ∃ T₀ > 0, ∀ T, 0 < T → T < T₀ → amonomer M P [ρ] T x = .ok [amono M P ρ T x] ∧ gsw M P ρ T x i i < 0 := by
  classical
  have hpi := Real.pi_pos
  have hsum : (∑ k : Fin m, ∑ l : Fin m, xskl P.g x k l * σ₀ ^ 3) = σ₀ ^ 3 := by
    have := (c17_xskl P.g x hx hν hV hS hC.ne').2.2
    rw [Finset.sum_congr rfl fun k _ => (Finset.sum_mul _ _ _).symm, ← Finset.sum_mul, this, one_mul]
  have hpack := c57_sw_equal_diameters_partial M 0.3 σ₀ P.g x hx hν hV hS hM.ne' hC.ne' hσ.ne'
  set ρ := densityMax M (cmol2seg P.g x) (xskl P.g x) (fun _ _ => σ₀) 0.3 with hρ
  have hρ0 : 0 < ρ := by rw [hρ]; unfold densityMax; rw [hsum]; positivity
  have hmax : densityMax M (cmol2seg P.g x) (xskl P.g x) P.σ 0.65 = 0.65 / 0.3 * ρ := by
    rw [hPσ, hρ]; unfold densityMax; ring
  rw [← hPσ] at hpack
  have hg : 0 < gHS (0.3 / σ₀) 0.3 σ₀ σ₀ := by rw [c109_ghs_pure 0.3 σ₀ hσ.ne' (by norm_num)]; norm_num
  obtain ⟨T₀, h0, hT⟩ := c152_violated_negative (epsii P i) lam σ₀ σ₀ (0.3 / σ₀) hε h1 hl hg
  refine ⟨ρ, hρ0, T₀, h0, fun T hTp hlt => ⟨?_, ?_⟩⟩
  · rw [c125_single, hmax, if_neg]
    rintro (h | h)
    · norm_num at h; linarith
    · linarith
  · rw [gsw_uniform M ρ T σ₀ lam P x i hσ hPσ hPl hi, hpack]
    exact hT T hTp hlt

/-- The hypotheses of `c152_accepted_partial` and `c152_violated_state` are met by a molecule of three segments of one group. -/
example : ∃ P : SWell 1 1, P.σ = (fun _ _ => 0.3) ∧ P.lam = (fun _ _ => 1.5) ∧ 0 < cmol2seg P.g (fun _ => 1) ∧
    ∑ k, zki P 0 k ≠ 0 ∧ 0 < epsii P 0 ∧ beadsum P 0 = 2 := by
  refine ⟨⟨⟨fun _ _ => 3, fun _ => 1, fun _ => 1⟩, fun _ _ => 100, fun _ _ => 0.3, fun _ _ => 1.5, fun _ => 0⟩, rfl, rfl, ?_, ?_, ?_,
    ?_⟩
  · simp [cmol2seg]
  · simp [zki]
  · simp [epsii, zfrac, zki]
  · simp only [beadsum, Finset.univ_unique, Finset.sum_singleton]; norm_num

/-! ## The Mie fluid -/

/-- **C152** (Mie): the contact value is a product of exponentials, so it is positive at every state, and its logarithm is
the sum of the exponents. -/
theorem c152_mie_positive (M ρ T : ℝ) (P : MieTerms.Mie n m) (x : Fin n → ℝ) (i : Fin n) :
    0 < MieTerms.gii M P ρ T x i ∧
      Real.log (MieTerms.gii M P ρ T x i) = Real.log (GammaMie.gdHS (MieTerms.x0ii P T i) (MieTerms.zx M P ρ T x)) +
        (MieTerms.epsii P i / T * MieTerms.g1 M P ρ T x i + (MieTerms.epsii P i / T) ^ 2 * MieTerms.g2 M P ρ T x i) /
          GammaMie.gdHS (MieTerms.x0ii P T i) (MieTerms.zx M P ρ T x) := by
  have h0 : 0 < GammaMie.gdHS (MieTerms.x0ii P T i) (MieTerms.zx M P ρ T x) := Real.exp_pos _
  refine ⟨mul_pos h0 (Real.exp_pos _), ?_⟩
  unfold MieTerms.gii
  rw [Real.log_mul h0.ne' (Real.exp_pos _).ne', Real.log_exp]
  congr 1
  generalize GammaMie.gdHS (MieTerms.x0ii P T i) (MieTerms.zx M P ρ T x) = g at *
  rw [add_div, mul_comm T g, ← div_div]
  congr 1
  field_simp

end Verif.Props
