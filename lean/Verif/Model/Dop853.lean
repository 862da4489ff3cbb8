import Verif.Model.Solve

/-!
Model: scipy `DOP853`, the integrator that all input files but one name (`'integrator' : 'DOP853'`,
passed on in main_functions.py 177-188): its coefficients (`scipy/integrate/_ivp/dop853_coefficients.py`)
and its dense output (`scipy/integrate/_ivp/rk.py`, `DOP853._dense_output_impl`), from which the output
times are answered.

scipy is not part of the repository.  Its coefficients are decimal numbers of about thirty digits,
given here as integers in units of `10⁻³³`; `dopDouble` has the doubles that python makes of them.
Simplification: arithmetic with the coefficients is exact.
-/

namespace Verif.Model

/-- The rows of `A`, from the first stage on; row 12 is `B`, rows 13 to 15 are those of dense output. -/
def dopRows : List (List ℤ) :=
  [[], [52600151958767731878558754448800], [19725056984537899454459532918300,
  59175170953613698363378598754900], [29587585476806849181689299377500, 0,
  88762756430420547545067898132400], [241365134159266685502369798665000, 0,
  -884549479328286085344864962717000, 924834003261792003115737966543000],
  [37037037037037037037037037037000, 0, 0, 170828608729473871279604482173000,
  125467687566822425016691814123000], [37109375000000000000000000000000, 0, 0,
  170252211019544039314978060272000, 60216538980455960685021939728300, -17578125000000000000000000000000],
  [37092000118504792710877931983600, 0, 0, 170383925712239993810214054705000,
  107262030446373284651809199168000, -15319437748624401752793615823600, 8273789163814022887584737660020],
  [624110958716075717114429577812000, 0, 0, -3360892629446941294068571098250000,
  -868219346841726006818189891453000, 27592099699446708304941560079700000,
  20154067550477893408618678897900000, -43489884181069958847736625514400000],
  [477662536438264365890433908527000, 0, 0, -2488114619971667641926425864680000,
  -590290826836842996371446475743000, 21230051448181194234728894989700000,
  15279233632882423583259692293800000, -33288210968984862919445326558700000,
  -20331201708508626135822292859300], [-937142430085987325717040216580000, 0, 0,
  5186372428844063708300238532090000, 1091437348996729578185002546540000,
  -8149787010746926125139972673570000, -18520065659996959864156618070100000,
  22739487099350504281897005673400000, 2493605552679652389870893967620000,
  -3046764471898219500382366902200000], [2273310147516538207923597684490000, 0, 0,
  -10534495466737250198406668987900000, -2000872058224862499096757184440000,
  -17958931863118798917276595053400000, 27948884529419960050849980883700000,
  -2858998277135023694740655086740000, -8872856933530629544335492892580000,
  12360567175794303064726620152800000, 643392746015763530355970484046000],
  [54293734116568762238053576636300, 0, 0, 0, 0, 4450312892752408881441139505660000,
  1891517899314500383042815990440000, -5801203960010584781467211422700000,
  311164366957819894408916062370000, -152160949662516078556178806805000, 201365400804030348374776537501000,
  44710615727772590517688556904300], [56167502283047952339290921968100, 0, 0, 0, 0, 0,
  253500210216624811088794765333000, -246239037470802489917441475441000,
  -124191423263816360469010140626000, 153291798278765697312063226850000, 8201052295634689884916666020570,
  7567897660545699761386035895840, -8298000000000000000000000000000], [31834648163502140506076847326100, 0,
  0, 0, 0, 28300909672366775528832296140200, 53541988307438567622379738437200,
  -54923748571390988464656934030600, 0, 0, -108347328697249322858509316994, 382571090835658412954920192323,
  -340465008687404560802977114492, 141312443674632500278074618366000], [-428896301583791923408573538692000,
  0, 0, 0, 0, -4697621415361163843144494472060000, 7683421196062599041842409538780000,
  4068989818397110079702135543310000, 356727187455281109270669543021000, 0, 0, 0,
  -1399024165159014621294180097340, 2947514789152772338955627214900000,
  -9150958472179870010818701871380000]]

/-- `C`. -/
def dopNodes : List ℤ :=
  [0, 52600151958767731878558754448800, 78900227938151597817838131673200,
  118350341907227396726757197510000, 281649658092772603273242802490000, 333333333333333333333333333333000,
  250000000000000000000000000000000, 307692307692307692307692307692000, 651282051282051282051282051282000,
  600000000000000000000000000000000, 857142857142857142857142857142000, 1000000000000000000000000000000000,
  1000000000000000000000000000000000, 100000000000000000000000000000000, 200000000000000000000000000000000,
  777777777777777777777777777778000]

/-- `D`, the matrix of dense output. -/
def dopDense : List (List ℤ) :=
  [[-8428938276109012865135349114200000, 0, 0, 0, 0, 566714953519377769625317835900000,
  -3068949945949891691279730472700000, 2384667656512069828772814968000000,
  2117034582445028276715514994600000, -871391583777972992067899074900000,
  2240437430260788275854177165000000, 631578778769468818155702492900000, -88990336451333310820698117400000,
  18148505520854727256656404962000000, -9194632392478355400045198443600000,
  -4436036387594893966431057200000000], [10427508642579134603413151009000000, 0, 0, 0, 0,
  242283491775258182884301753190000000, 165200451717270281985053948870000000,
  -374546754722690202795183121520000000, -22113666853125306036270938578000000,
  7733432668472263838960389880800000, -30674084731089398182061213626000000,
  -9332130526430227872956722170600000, 15697238121770843886131091075000000,
  -31139403219565177677282850411000000, -9352924358844478386571386266400000,
  35816841486394083752465898540000000], [19985053242002433820987653617000000, 0, 0, 0, 0,
  -387037308749351765551059017420000000, -189178138195167568828308383280000000,
  527808159205423649005610166860000000, -11573902539959630126141871134000000,
  6881232694696300016966692266100000, -1000605096691083840318386098000000,
  777713779805344320928692657400000, -2778205752353508406593200433900000,
  -60196695231264120758267380846000000, 84320405506677161018159903784000000,
  11992291136182789328035130030000000], [-25693933462703749003312586129000000, 0, 0, 0, 0,
  -154189748690236433740539936270000000, -231529379176045495675360391090000000,
  357639117910614123782853499100000000, 93405324183624310003907691704000000,
  -37458323136451633156875139351000000, 104099649508962300451472461840000000,
  29840293426660503123344363579000000, -43533456590011143754432175058000000,
  96324553959188282948394950600000000, -39177261675615439165231486172000000,
  -149726836257985625814221252760000000]]

/-- `n / d`, rounded to the nearest integer, to the even one of two. -/
def roundDiv (n d : ℕ) : ℕ :=
  if 2 * (n % d) < d ∨ 2 * (n % d) = d ∧ (n / d) % 2 = 0 then n / d else n / d + 1

/-- The double next to `a * 10⁻³³`, in units of `2⁻¹⁰⁰`: 53 binary digits. -/
def roundNat (a : ℕ) : ℕ :=
  if a = 0 then 0 else
    let e := 252 - Nat.log2 (a * 2 ^ 200 / 10 ^ 33)
    roundDiv (a * 2 ^ e) (10 ^ 33) * 2 ^ (100 - e)

def toDouble : ℤ → ℤ
  | .ofNat a => roundNat a
  | .negSucc a => -roundNat (a + 1)

/-- Coefficients of a method of the shape of `DOP853`, integer multiples of a unit. -/
structure DopCoefficients where
  rows : List (List ℤ)
  nodes : List ℤ
  dense : List (List ℤ)
  inverse : ℕ

/-- The coefficients as written. -/
def dopDecimal : DopCoefficients := ⟨dopRows, dopNodes, dopDense, 10 ^ 33⟩

/-- The coefficients as doubles. -/
def dopDouble : DopCoefficients :=
  ⟨dopRows.map (·.map toDouble), dopNodes.map toDouble, dopDense.map (·.map toDouble), 2 ^ 100⟩

namespace DopCoefficients

variable (c : DopCoefficients)

/-- `A`, with `A_EXTRA`. -/
noncomputable def row (i j : ℕ) : ℝ := ((c.rows.getD i []).getD j 0 : ℤ) / (c.inverse : ℝ)

/-- `C`, with `C_EXTRA`. -/
noncomputable def node (i : ℕ) : ℝ := (c.nodes.getD i 0 : ℤ) / (c.inverse : ℝ)

/-- `D`. -/
noncomputable def denseEntry (i j : ℕ) : ℝ := ((c.dense.getD i []).getD j 0 : ℤ) / (c.inverse : ℝ)

/-- `DOP853`: `n_stages = 12`, `A = A[:12, :12]`, `B = A[12, :12]`, `C = C[:12]`. -/
noncomputable def tableau : Tableau where
  n := 12
  a := c.row
  b := c.row 12
  c := c.node

end DopCoefficients

/-- `_dense_output_impl`: the rows of `F` but the first, from the evaluations `K` of the step and all
evaluations `X`. -/
noncomputable def dopRowsOf (c : DopCoefficients) (y : StateVec) (h : ℝ) (K X : ℕ → StateVec)
    (i : ℕ) : StateVec := fun l k m =>
  let yNew := combine y h (c.row 12) K 12
  let delta := yNew l k m - y l k m
  if i = 1 then h * K 0 l k m - delta
  else if i = 2 then 2 * delta - h * (K 12 l k m + K 0 l k m)
  else h * ∑ j ∈ Finset.range 16, c.denseEntry (i - 3) j * X j l k m

namespace Problem

variable (P : Problem)

/-- The loop of `_dense_output_impl` over `A_EXTRA` and `C_EXTRA`: three more evaluations, each on the
objects as the one before left them. -/
noncomputable def extraLoop (c : DopCoefficients) (t h : ℝ) (y : StateVec) :
    ℕ → Objects × (ℕ → StateVec) → Option (Objects × (ℕ → StateVec))
  | 0, x => some x
  | i + 1, x => (extraLoop c t h y i x).bind fun z =>
      (P.call z.1 (t + c.node (13 + i) * h) (combine y h (c.row (13 + i)) z.2 (13 + i))).map fun r =>
        (r.1, Function.update z.2 (13 + i) r.2)

/-- The values of these evaluations, on objects as `solve` built them.  That they are the same on the
objects of the integration is a theorem; that the objects change is what `Event.probe` is for. -/
noncomputable def extraValues (c : DopCoefficients) (t h : ℝ) (y : StateVec) (K : ℕ → StateVec) :
    ℕ → StateVec :=
  ((P.objects.bind fun o => P.extraLoop c t h y 3 (o, K)).map Prod.snd).getD K

/-- `_dense_output_impl`: the rows of `F` but the first. -/
noncomputable def dopRowsF (c : DopCoefficients) (t : ℝ) (y : StateVec) (h : ℝ) (K : ℕ → StateVec) :
    ℕ → StateVec := dopRowsOf c y h K (P.extraValues c t h y K)

/-- The dense output of `DOP853`. -/
noncomputable def dopDenseOutput (c : DopCoefficients) : Interpolant :=
  dopInterpolant c.tableau (P.dopRowsF c)

end Problem

end Verif.Model
