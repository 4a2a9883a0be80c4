import Verif.Model.Toolbox

/-!
# The data classes of parameter fitting: `despasito/parameter_fitting/data_classes/*.py`

Only the constructors are modelled here (the objectives are in `Verif.Model.Objective`), together with
the constructor of the parent class, interface.py:57-93.  Values are of an arbitrary type `α` (numbers,
or rows of numbers for compositions).  Not modelled: log messages, the options of the objective
function, and the multiprocessing object, which are only stored.
-/

namespace Verif.DataClasses
open Verif Verif.Toolbox

/-- The five data classes. Used in TLVE.py:97-115, flash.py:103-118, liquid_density.py:105-113. -/
inductive Kind where
  | tlve | flash | liquid | saturation | solubility
  deriving DecidableEq, Repr

/-- A data set as `fit` hands it over, split by interface.py:57-93 into what the parent class takes out
and the rest (`data`). -/
structure Input (α : Type) where
  hasEos : Bool
  /-- `Eos.number_of_components` -/
  comps : Nat
  weights : PyDict String (Arg α)
  density : Option (PyDict String α)
  calcType : Option String
  data : PyDict String (Arg α)

/-- Constants, and the python truth value of an array. Used in TLVE.py:145-153. -/
structure Consts (α : Type) where
  stdT : α
  stdP : α
  /-- the composition `[1.0]` -/
  pureRow : α
  weight : α
  frac300k : α
  frac80k : α
  densityIncrement : α
  volumeIncrement : α
  /-- `bool(array)`: an error for more than one number. -/
  truth : List α → Except PyErr Bool

/-- The attributes of the object built. interface.py:57-93 and the constructors, e.g. TLVE.py:86-160. -/
structure Built (α : Type) where
  calcType : String
  density : PyDict String α
  vals : PyDict String (Arg α)
  weights : PyDict String (Arg α)
  npoints : Nat
  resultKeys : List String
  deriving DecidableEq

/-- The variables while the constructor runs: `thermodict`, `weights` and the remaining `data_dict`.
TLVE.py:86-160 and the same in the other four. -/
structure St (α : Type) where
  vals : PyDict String (Arg α)
  weights : PyDict String (Arg α)
  data : PyDict String (Arg α)

variable {α : Type}

/-- An entry taken from the data under a name and stored under another; `wt` says whether its weight is
renamed as well. Used in TLVE.py:97-115, flash.py:103-118, liquid_density.py:105-113. -/
structure Move where
  old : String
  new : String
  wt : Bool

/-- The entries renamed: TLVE.py:97-115, flash.py:103-118, liquid_density.py:105-113,
saturation_properties.py:109-129, solubility_parameter.py:97-111. -/
def moves : Kind → List Move
  | .tlve => [⟨"T", "Tlist", false⟩, ⟨"xi", "xilist", true⟩, ⟨"yi", "yilist", true⟩, ⟨"P", "Plist", true⟩]
  | .flash => [⟨"xi", "xilist", true⟩, ⟨"yi", "yilist", true⟩, ⟨"T", "Tlist", false⟩, ⟨"P", "Plist", false⟩]
  | .liquid => [⟨"xi", "xilist", false⟩, ⟨"T", "Tlist", false⟩, ⟨"P", "Plist", false⟩]
  | .saturation => [⟨"xi", "xilist", false⟩, ⟨"yi", "xilist", false⟩, ⟨"T", "Tlist", false⟩,
      ⟨"P", "Psat", true⟩]
  | .solubility => [⟨"xi", "xilist", false⟩, ⟨"yi", "xilist", false⟩, ⟨"T", "Tlist", false⟩,
      ⟨"P", "Plist", true⟩]

/-- `weights[new] = weights.pop(old)` if `old` is there.
TLVE.py:97-115, flash.py:103-118, saturation_properties.py:109-129. -/
def renameKey (w : PyDict String (Arg α)) (old new : String) : PyDict String (Arg α) :=
  match w.get? old with
  | none => w
  | some x => (w.erase old).set new x

/-- One entry renamed. TLVE.py:97-115, flash.py:103-118, saturation_properties.py:109-129. -/
def move (s : St α) (m : Move) : St α :=
  match s.data.get? m.old with
  | none => s
  | some v =>
    { vals := s.vals.set m.new v
      weights := if m.wt then renameKey s.weights m.old m.new else s.weights
      data := s.data.erase m.old }

/-- TLVE.py:112: the pressure is also the initial guess. -/
def setGuess (k : Kind) (data vals : PyDict String (Arg α)) : PyDict String (Arg α) :=
  match k, data.get? "P" with
  | .tlve, some v => vals.set "Pguess" v
  | _, _ => vals

/-- saturation_properties.py:122-127: a list of weights of the pressure needs one weight for each
pressure (`len` of a scalar pressure is a `TypeError`). -/
def satWeightCheck (k : Kind) (i : Input α) : Except PyErr Unit :=
  match k, i.data.get? "P", i.weights.get? "P" with
  | .saturation, some (.arr p), some (.arr w) =>
    if w.length ≠ p.length then .error .valueError else .ok ()
  | .saturation, some (.scalar _), some (.arr _) => .error .typeError
  | _, _, _ => .ok ()

/-- `thermodict` and `weights` after the renaming and `thermodict.update(data_dict)`.
TLVE.py:97-117, flash.py:103-120, liquid_density.py:105-115, saturation_properties.py:109-131, solubility_parameter.py:97-113. -/
def prepare (k : Kind) (i : Input α) : PyDict String (Arg α) × PyDict String (Arg α) :=
  let s := (moves k).foldl move ⟨PyDict.empty, i.weights, i.data⟩
  ((setGuess k i.data s.vals).update s.data, s.weights)

/-- `thermo_keys` and `result_keys` together.
TLVE.py:119-123, flash.py:122-126, liquid_density.py:117-121, saturation_properties.py:133-137, solubility_parameter.py:115-119. -/
def allKeys : Kind → List String
  | .tlve => ["Plist", "xilist", "Tlist", "yilist"]
  | .flash => ["Plist", "Tlist", "xilist", "yilist"]
  | .liquid => ["Plist", "xilist", "Tlist", "rhol", "phil"]
  | .saturation => ["xilist", "Tlist", "rhol", "rhov", "Psat"]
  | .solubility => ["Plist", "xilist", "Tlist", "rhol", "delta"]

/-- `result_keys`. Used in TLVE.py:155-160. -/
def resultKeys : Kind → List String
  | .tlve => ["Plist", "xilist", "yilist"]
  | .flash => ["xilist", "yilist"]
  | .liquid => ["rhol", "phil"]
  | .saturation => ["rhol", "rhov", "Psat"]
  | .solubility => ["rhol", "delta"]

/-- `d.update(e)` for a dictionary of arrays `e`. TLVE.py:123, 126 and 135 and the same in the other four. -/
def updateArr (d : PyDict String (Arg α)) (e : PyDict String (List α)) : PyDict String (Arg α) :=
  e.entries.foldl (fun acc p => acc.set p.1 (.arr p.2)) d

/-- `np.size(d[key])` for an entry of numbers. Used in TLVE.py:124, flash.py:127, liquid_density.py:122. -/
def sizeAt (d : PyDict String (Arg α)) (key : String) : Except PyErr Nat :=
  match d.get? key with
  | none => .error .keyError
  | some v => .ok v.len

/-- The number of states: TLVE.py:124, flash.py:127, liquid_density.py:122 (all from `Tlist`),
solubility_parameter.py:120 (from `delta`), saturation_properties.py:138-141 (the first result
present; without any it stays NaN, and `range(npoints)` at line 148 is a `TypeError`). -/
def npoints (k : Kind) (vals : PyDict String (Arg α)) : Except PyErr Nat :=
  match k with
  | .tlve | .flash | .liquid => sizeAt vals "Tlist"
  | .solubility => sizeAt vals "delta"
  | .saturation =>
    match vals.get? "rhol", vals.get? "rhov", vals.get? "Psat" with
    | some v, _, _ => .ok v.len
    | none, some v, _ => .ok v.len
    | none, none, some v => .ok v.len
    | none, none, none => .error .typeError

/-- liquid_density.py:124, saturation_properties.py:143, solubility_parameter.py:122: a mixture needs a
composition. -/
def ambiguous (k : Kind) (comps : Nat) (vals : PyDict String (Arg α)) : Bool :=
  match k with
  | .tlve | .flash => false
  | _ => !vals.contains "xilist" && decide (1 < comps)

/-- `set_defaults` for the conditions.
TLVE.py:126-133, flash.py:130, liquid_density.py:131, saturation_properties.py:151, solubility_parameter.py:129. -/
def withDefaults (c : Consts α) (k : Kind) (n : Nat) (vals : PyDict String (Arg α)) :
    Except PyErr (PyDict String (Arg α)) :=
  match k with
  | .tlve => setDefaults vals (.one "Tlist") (.one c.stdT) (some n)
  | .flash => setDefaults vals (.many ["Plist", "Tlist"]) (.many [.scalar c.stdP, .scalar c.stdT]) (some n)
  | .liquid | .solubility => setDefaults vals (.many ["Plist", "xilist", "Tlist"])
      (.many [.scalar c.stdP, .arr (List.replicate n c.pureRow), .scalar c.stdT]) (some n)
  | .saturation => setDefaults vals (.many ["xilist", "Tlist"])
      (.many [.arr (List.replicate n c.pureRow), .scalar c.stdT]) (some n)

/-- The weights: `check_length_dict` with the number of states, then 1 for each missing one.
TLVE.py:135-136, flash.py:132-133, liquid_density.py:133-134, saturation_properties.py:153-154, solubility_parameter.py:131-132. -/
def fillWeights (c : Consts α) (k : Kind) (n : Nat) (w : PyDict String (Arg α)) :
    Except PyErr (PyDict String (Arg α)) :=
  match checkLengthDict w (resultKeys k) (some n) with
  | .error e => .error e
  | .ok d => setDefaults (updateArr w d) (.many (resultKeys k)) (.one c.weight) none

/-- The checks of completeness: TLVE.py:138-143, flash.py:135-139, liquid_density.py:136,
saturation_properties.py:156-161, solubility_parameter.py:134. -/
def incomplete (k : Kind) (vals : PyDict String (Arg α)) : Bool :=
  match k with
  | .tlve => !vals.contains "Tlist" ||
      !(vals.contains "xilist" || vals.contains "yilist" || vals.contains "Plist")
  | .flash => (!vals.contains "Plist" && !vals.contains "Tlist") ||
      (!vals.contains "xilist" || !vals.contains "yilist")
  | .liquid => !vals.contains "Tlist" && !vals.contains "rhol"
  | .saturation => !vals.contains "Tlist" ||
      !(vals.contains "Psat" || vals.contains "rhol" || vals.contains "rhov")
  | .solubility => !vals.contains "Tlist" && !vals.contains "delta"

/-- The python truth of an entry. Used in TLVE.py:145-153. -/
def truthOf (c : Consts α) : Arg α → Except PyErr Bool
  | .scalar a => c.truth [a]
  | .arr l => c.truth l

/-- TLVE.py:145-153: the calculation when none is given. -/
def tlveDefault (c : Consts α) (vals : PyDict String (Arg α)) : Except PyErr String :=
  match vals.get? "xilist" with
  | none => .error .keyError
  | some x => match truthOf c x with
    | .error e => .error e
    | .ok true => .ok "bubble_pressure"
    | .ok false => match vals.get? "yilist" with
      | none => .error .keyError
      | some y => match truthOf c y with
        | .error e => .error e
        | .ok true => .ok "dew_pressure"
        | .ok false => .error .valueError

/-- The calculation to run. Used in TLVE.py:145-153. -/
def calculation (c : Consts α) (k : Kind) (given : Option String) (vals : PyDict String (Arg α)) :
    Except PyErr String :=
  match given with
  | some t => .ok t
  | none => match k with
    | .tlve => tlveDefault c vals
    | .flash => .ok "flash"
    | .liquid => .ok "liquid_properties"
    | .saturation => .ok "saturation_properties"
    | .solubility => .ok "solubility_parameter"

/-- TLVE.py:155-160: the composition that is given is not a result. -/
def finalResults (k : Kind) (ct : String) : List String :=
  match k with
  | .tlve => if ct = "bubble_pressure" then (resultKeys k).erase "xilist"
      else if ct = "dew_pressure" then (resultKeys k).erase "yilist" else resultKeys k
  | _ => resultKeys k

/-- … nor does it keep a weight. TLVE.py:155-160. -/
def finalWeights (k : Kind) (ct : String) (w : PyDict String (Arg α)) : PyDict String (Arg α) :=
  match k with
  | .tlve => if ct = "bubble_pressure" then w.erase "xilist"
      else if ct = "dew_pressure" then w.erase "yilist" else w
  | _ => w

/-- `density_opts`: TLVE.py:93-95 (stores an empty dictionary, then updates it with itself),
flash.py:94-101, liquid_density.py:93-100, saturation_properties.py:99-106,
solubility_parameter.py:94-95. -/
def densityOptions (c : Consts α) (k : Kind) (given : Option (PyDict String α)) : PyDict String α :=
  match k with
  | .tlve => (PyDict.empty).update PyDict.empty
  | .flash | .liquid =>
    (PyDict.mk [("min_density_fraction", c.frac300k), ("density_increment", c.densityIncrement),
      ("max_volume_increment", c.volumeIncrement)]).update (given.getD PyDict.empty)
  | .saturation =>
    (PyDict.mk [("min_density_fraction", c.frac80k), ("density_increment", c.densityIncrement),
      ("max_volume_increment", c.volumeIncrement)]).update (given.getD PyDict.empty)
  | .solubility => given.getD PyDict.empty

/-- After the lengths are known.
TLVE.py:124-160, flash.py:127-139, liquid_density.py:122-137, saturation_properties.py:138-161, solubility_parameter.py:120-135. -/
def finish (c : Consts α) (k : Kind) (i : Input α) (vals w : PyDict String (Arg α)) (n : Nat) :
    Except PyErr (Built α) :=
  if ambiguous k i.comps vals then .error .valueError
  else match withDefaults c k n vals with
    | .error e => .error e
    | .ok vals' => match fillWeights c k n w with
      | .error e => .error e
      | .ok w' =>
        if incomplete k vals' then .error .importError
        else match calculation c k i.calcType vals' with
          | .error e => .error e
          | .ok t => .ok ⟨t, densityOptions c k i.density, vals', finalWeights k t w', n, finalResults k t⟩

/-- The constructors.  The order of the checks of one constructor is kept except that the default
calculation of `flash` and the others, which cannot fail, is determined at the end.
TLVE.py:86-160, flash.py:83-139, liquid_density.py:86-137, saturation_properties.py:88-161, solubility_parameter.py:84-135. -/
def build (c : Consts α) (k : Kind) (i : Input α) : Except PyErr (Built α) :=
  if i.hasEos = false then .error .valueError
  else match satWeightCheck k i with
    | .error e => .error e
    | .ok () =>
      match checkLengthDict (prepare k i).1 (allKeys k) none with
      | .error e => .error e
      | .ok d =>
        match npoints k (updateArr (prepare k i).1 d) with
        | .error e => .error e
        | .ok n => finish c k i (updateArr (prepare k i).1 d) (prepare k i).2 n

/-- Two data sets with the same dictionary of weights, built one after the other: the dictionary is neither copied by the
parent class (interface.py:68-70) nor by the constructors, which copy only the dictionary around it (e.g. TLVE.py:88), and every
change of the weights is made in it (e.g. TLVE.py:101-115, 135-136, 155-160).  Both objects hold it in the end.  What a constructor
that fails has changed before is left out. -/
def buildShared (c : Consts α) (k₁ k₂ : Kind) (i₁ i₂ : Input α) : Except PyErr (Built α × Built α) :=
  match build c k₁ i₁ with
  | .error e => .error e
  | .ok b₁ => match build c k₂ { i₂ with weights := b₁.weights } with
    | .error e => .error e
    | .ok b₂ => .ok ({ b₁ with weights := b₂.weights }, b₂)

end Verif.DataClasses
