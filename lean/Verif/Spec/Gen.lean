import Verif.Model.Gen

/-!
# How values of the variant-by-variant model appear in the generated code
-/

set_option autoImplicit false

namespace FixedMap.Gen

variable {H : HashbrownApi} {V : Type}

/-- The fields `_i, _{i+1}, …` with the given values. -/
def named : Nat → List (Cell H V) → Struct H V
  | _, [] => []
  | i, c :: cs => (fieldName i, c) :: named (i + 1) cs

/-- The values of the fields of a map storage, in declaration order. -/
def mapCells : (fs : Fields) → (mapFields H V fs).S → List (Cell H V)
  | .nil, _ => []
  | .simple fs, (o, s) => .slot o :: mapCells fs s
  | .complex κ fs, (m, s) => .map κ m :: mapCells fs s

/-- The values of the fields of a set storage. The type `V` plays no role. -/
def setCells (V : Type) : (fs : Fields) → (setFields H fs).S → List (Cell H V)
  | .nil, _ => []
  | .simple fs, (b, s) => .flag b :: setCells V fs s
  | .complex κ fs, (m, s) => .set κ m :: setCells V fs s

/-- The struct `__MapStorage { _0, _1, .. }`. -/
def mapStruct (fs : Fields) (s : (mapFields H V fs).S) : Struct H V := named 0 (mapCells fs s)

/-- The struct `__SetStorage { _0, _1, .. }`. -/
def setStruct (V : Type) (fs : Fields) (s : (setFields H fs).S) : Struct H V := named 0 (setCells V fs s)

/-- The value of the enum: the name of the variant and the payload. -/
def dynKey : (vs : List Variant) → (fieldsOf vs).Key → DynKey
  | [], k => Empty.elim k
  | ⟨x, none⟩ :: _, .inl _ => ⟨x, none⟩
  | ⟨_, none⟩ :: vs, .inr k => dynKey vs k
  | ⟨x, some κ⟩ :: _, .inl k => ⟨x, some ⟨κ, k⟩⟩
  | ⟨_, some _⟩ :: vs, .inr k => dynKey vs k

/-- The `&mut V` that points into the storage; fields are numbered from `i`. -/
def dynAddr : Nat → (fs : Fields) → (mapFields H V fs).Addr → DynAddr H V
  | _, .nil, a => Empty.elim a
  | i, .simple _, .inl _ => .slot (fieldName i)
  | i, .simple fs, .inr a => dynAddr (i + 1) fs a
  | i, .complex κ _, .inl a => .map (fieldName i) κ a
  | i, .complex _ fs, .inr a => dynAddr (i + 1) fs a

/-- Read through a `&mut V` that points into the struct. -/
def readAddr (S : Struct H V) : DynAddr H V → Option V
  | .slot n =>
    match S.get n with
    | some (.slot o) => o
    | _ => none
  | .map n κ a => ((S.get n).bind (Cell.asMap κ)).bind fun s => (mapStorage H V κ).read s a

/-- Assign through a `&mut V` that points into the struct. -/
def writeAddr (S : Struct H V) (a : DynAddr H V) (v : V) : Struct H V :=
  match a with
  | .slot n =>
    match S.get n with
    | some (.slot o) => S.set n (.slot (writeSlot o v))
    | _ => S
  | .map n κ a =>
    match (S.get n).bind (Cell.asMap κ) with
    | some s => S.set n (.map κ ((mapStorage H V κ).write s a v))
    | none => S

/-- A value of the enum: some declared variant, with a payload of its element type if it has one. -/
def IsKey (vs : List Variant) (k : DynKey) : Prop :=
  ∃ v ∈ vs, k.var = v.ident ∧ v.elem = k.arg.map (·.1)

/-- The names of variants are distinct (rustc error E0428 otherwise). -/
def Distinct (vs : List Variant) : Prop := (vs.map (·.ident)).Nodup

end FixedMap.Gen
