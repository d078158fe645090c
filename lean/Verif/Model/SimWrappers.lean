import Verif.Model.Formats

/-!
Classes for particular simulations (python/virgo/sims/coco.py, millennium.py, millennium2.py, mxxl.py), which pass their arguments to those of python/virgo/formats.

Arguments are bound to parameters as Python does for functions without `**kwargs`. The argument `self` is left out everywhere.
-/

namespace Verif

/-- Values of arguments -/
inductive PyVal
  | none
  | bool (b : Bool)
  | int (n : Int)
  | str (s : String)
  | other (id : Nat)
  deriving DecidableEq

/-- `v == n`; `True` is equal to 1. -/
def PyVal.eqInt (v : PyVal) (n : Int) : Bool :=
  match v with
  | .int m => m == n
  | .bool b => (if b then 1 else 0) == n
  | _ => false

/-- `bool(v)`; other objects are true. -/
def PyVal.truthy : PyVal → Bool
  | .none => false
  | .bool b => b
  | .int n => n != 0
  | .str s => s != ""
  | .other _ => true

/-- Parameters with their default values, and whether there is `*args` -/
structure Signature where
  params : List (String × Option PyVal)
  varargs : Bool

/-- Arguments of a call -/
structure PyCall where
  pos : List PyVal
  kw : List (String × PyVal)

/-- The value bound to a name -/
def boundValue (env : List (String × PyVal)) (n : String) : Option PyVal := (env.find? (fun x => x.1 = n)).map (·.2)

/-- Keyword arguments are bound one after the other. An unknown name or one which has a value is a TypeError. -/
def bindKeywords (names : List String) (env : List (String × PyVal)) : List (String × PyVal) → Except Err (List (String × PyVal))
  | [] => .ok env
  | (n, v) :: rest =>
    if n ∉ names then .error .typeError
    else if (boundValue env n).isSome then .error .typeError
    else bindKeywords names (env ++ [(n, v)]) rest

/-- Parameters without a value get the default value; if there is none it is a TypeError. -/
def bindDefaults (env : List (String × PyVal)) : List (String × Option PyVal) → Except Err (List (String × PyVal))
  | [] => .ok []
  | (n, d) :: rest =>
    match (boundValue env n).or d with
    | none => .error .typeError
    | some v =>
      match bindDefaults env rest with
      | .error e => .error e
      | .ok l => .ok ((n, v) :: l)

/-- A call: the values of the parameters and of `*args` -/
def bindCall (sig : Signature) (c : PyCall) : Except Err (List (String × PyVal) × List PyVal) :=
  let names := sig.params.map (·.1)
  let extra := c.pos.drop names.length
  if extra ≠ [] ∧ sig.varargs = false then .error .typeError
  else
    match bindKeywords names (names.zip c.pos) c.kw with
    | .error e => .error e
    | .ok env =>
      match bindDefaults env sig.params with
      | .error e => .error e
      | .ok l => .ok (l, extra)

/-- A class which calls the constructor of its base class with its own parameters, some of them by position and the others as `name=name` -/
structure SimClass where
  sig : Signature
  base : Signature
  pos : List String
  kw : List String

/-- The arguments which the base class gets -/
def SimClass.forward (cls : SimClass) (env : List (String × PyVal)) : PyCall :=
  ⟨cls.pos.map (fun n => (boundValue env n).getD .none), cls.kw.map (fun n => (n, (boundValue env n).getD .none))⟩

/-- The parameters of the base class in a call of the class -/
def SimClass.construct (cls : SimClass) (c : PyCall) : Except Err (List (String × PyVal) × List PyVal) :=
  match bindCall cls.sig c with
  | .error e => .error e
  | .ok (env, _) => bindCall cls.base (cls.forward env)

def fnameParam : String × Option PyVal := ("fname", none)

/-- `millennium.GroupIDsFile`, `SubTabFile`, `SubIDsFile` (millennium.py 23-44) and `coco.SubTabFile` (coco.py 14-19): the constructors of subfind_lgadget2.py (77, 131, 231) and
subfind_gadget4.py (29) -/
def idBytesClass : SimClass where
  sig := ⟨[fnameParam, ("id_bytes", some (.int 8))], false⟩
  base := ⟨[fnameParam, ("id_bytes", some (.int 8))], true⟩
  pos := ["fname"]
  kw := ["id_bytes"]

/-- `millennium.GroupTabFile` (17-21) and `SnapshotFile` (46-50), which only inherit (subfind_lgadget2.py 31, 285) -/
def fnameSignature : Signature := ⟨[fnameParam], true⟩

/-- Parameters of `subfind_pgadget3.SubTabFile`, `GroupCatalogue` and `GroupOrderedSnapshot` (subfind_pgadget3.py 144-147, 365-368, 426-429) and of the classes of millennium2.py -/
def pgadget3Params : List (String × Option PyVal) :=
  [("SO_VEL_DISPERSIONS", some (.bool false)), ("SO_BAR_INFO", some (.bool false)), ("WRITE_SUB_IN_SNAP_FORMAT", some (.bool false)), ("id_bytes", some (.int 8)), ("float_bytes", some (.int 4))]

def pgadget3Names : List String := ["SO_VEL_DISPERSIONS", "SO_BAR_INFO", "WRITE_SUB_IN_SNAP_FORMAT", "id_bytes", "float_bytes"]

/-- `millennium2.SubTabFile` (millennium2.py 14-27) -/
def millennium2SubTab : SimClass where
  sig := ⟨fnameParam :: pgadget3Params, false⟩
  base := ⟨fnameParam :: pgadget3Params, true⟩
  pos := ["fname"]
  kw := pgadget3Names

/-- `millennium2.GroupCatalogue` (38-58) -/
def millennium2Catalogue : SimClass where
  sig := ⟨("basedir", none) :: ("isnap", none) :: ("datasets", some .none) :: pgadget3Params, false⟩
  base := ⟨("basedir", none) :: ("isnap", none) :: ("datasets", some .none) :: pgadget3Params, false⟩
  pos := ["basedir", "isnap"]
  kw := "datasets" :: pgadget3Names

/-- `millennium2.GroupOrderedSnapshot` (61-79) -/
def millennium2Snapshot : SimClass where
  sig := ⟨("basedir", none) :: ("basename", none) :: ("isnap", none) :: pgadget3Params, false⟩
  base := ⟨("basedir", none) :: ("basename", none) :: ("isnap", none) :: pgadget3Params, false⟩
  pos := ["basedir", "basename", "isnap"]
  kw := pgadget3Names

/-- `coco.GroupOrderedSnapshot` (coco.py 30-40); the base class is at subfind_gadget4.py 159. -/
def cocoSnapshot : SimClass where
  sig := ⟨[("basedir", none), ("basename", none), ("isnap", none), ("id_bytes", some (.int 8))], false⟩
  base := ⟨[("basedir", none), ("basename", none), ("isnap", none), ("id_bytes", some (.int 8))], false⟩
  pos := ["basedir", "basename", "isnap"]
  kw := ["id_bytes"]

/-- `coco.GroupCatalogue` (43-56); the base class is at subfind_gadget4.py 118. -/
def cocoCatalogue : SimClass where
  sig := ⟨[("basedir", none), ("isnap", none), ("id_bytes", some (.int 8)), ("datasets", some .none)], false⟩
  base := ⟨[("basedir", none), ("isnap", none), ("id_bytes", some (.int 8)), ("datasets", some .none)], false⟩
  pos := ["basedir", "isnap"]
  kw := ["id_bytes", "datasets"]

/-- `mxxl.SubTabFile` (mxxl.py 30-43); the base class has other parameters (subfind_lgadget3.py 15-19). -/
def mxxlSubTab : SimClass where
  sig := ⟨[fnameParam, ("SO_VEL_DISPERSIONS", some (.bool true)), ("SO_BAR_INFO", some (.bool false)), ("WRITE_SUB_IN_SNAP_FORMAT", some (.bool false)), ("id_bytes", some (.int 8)),
    ("float_bytes", some (.int 4))], false⟩
  base := ⟨[fnameParam, ("SO_VEL_DISPERSIONS", some (.bool false)), ("SUB_SHAPES", some (.bool false)), ("id_bytes", some (.int 4)), ("float_bytes", some (.int 4))], true⟩
  pos := ["fname"]
  kw := pgadget3Names

/-- `if x == 4: ... elif x == 8: ... else: raise ValueError` -/
def bytesOf (env : List (String × PyVal)) (n : String) : Except Err Nat :=
  let v := (boundValue env n).getD .none
  if v.eqInt 4 then .ok 4 else if v.eqInt 8 then .ok 8 else .error .valueError

/-- The constructors of subfind_lgadget2.py which have the parameter `id_bytes`; it is looked at after the header was read (92-97, 147-152, 246-251). -/
def lgadget2Init (F : Nat → Format) (env : List (String × PyVal)) (s : Bool) (file : List Byte) : Except Err BFile :=
  match (F 8).open s file with
  | .error e => .error e
  | .ok _ =>
    match bytesOf env "id_bytes" with
    | .error e => .error e
    | .ok id => (F id).parse s file

/-- `subfind_gadget4.SubTabFile.__init__` -/
def gadget4Init (env : List (String × PyVal)) (s : Bool) (file : List Byte) : Except Err BFile :=
  match bytesOf env "id_bytes" with
  | .error e => .error e
  | .ok id => (gadget4SubTab id).parse s file

/-- `subfind_pgadget3.SubTabFile.__init__` (143-180); NotImplementedError is `other`. -/
def pgadget3Init (env : List (String × PyVal)) (s : Bool) (file : List Byte) : Except Err BFile :=
  if ((boundValue env "WRITE_SUB_IN_SNAP_FORMAT").getD .none).truthy then .error .other
  else if ((boundValue env "SO_BAR_INFO").getD .none).truthy then .error .other
  else
    match bytesOf env "id_bytes" with
    | .error e => .error e
    | .ok id =>
      match bytesOf env "float_bytes" with
      | .error e => .error e
      | .ok fl => (pgadget3SubTab ((boundValue env "SO_VEL_DISPERSIONS").getD .none).truthy id fl).parse s file

/-- `subfind_lgadget3.SubTabFile.__init__` (15-41) -/
def lgadget3Init (env : List (String × PyVal)) (s : Bool) (file : List Byte) : Except Err BFile :=
  match bytesOf env "id_bytes" with
  | .error e => .error e
  | .ok _ =>
    match bytesOf env "float_bytes" with
    | .error e => .error e
    | .ok fl => (lgadget3SubTab ((boundValue env "SO_VEL_DISPERSIONS").getD .none).truthy ((boundValue env "SUB_SHAPES").getD .none).truthy fl).parse s file

/-- A call of a class with the contents of the file it names -/
def SimClass.openFile (cls : SimClass) (init : List (String × PyVal) → Bool → List Byte → Except Err BFile) (c : PyCall) (s : Bool) (file : List Byte) : Except Err BFile :=
  match cls.construct c with
  | .error e => .error e
  | .ok (env, _) => init env s file

end Verif
