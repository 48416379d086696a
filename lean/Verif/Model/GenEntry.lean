import Verif.Model.Gen

/-!
# The entries emitted by `map_storage_entry` (any_variants.rs 1853-2090), as data, and their meaning

`enum OccupiedEntry` and `enum VacantEntry` have one variant `Simple` for all unit variants and one variant
`_i` for each tuple variant. Line numbers refer to any_variants.rs.
-/

set_option autoImplicit false

namespace FixedMap.Gen

/-! ## Emitted code -/

/-- Methods of an occupied entry other than `key`. -/
inductive OccMeth where
  | get | getMut | intoMut | insert | remove
deriving DecidableEq

/-- Functions of `SomeBucket`. -/
inductive SomeFn where
  | asRef | asMut | intoMut | replace | take
deriving DecidableEq

/-- Bodies of `entry`'s arms. -/
inductive EntryBody where
  /-- `option_to_entry(&mut self.recv, arg)` -/
  | optionToEntry (recv arg : String)
  /-- `match MapStorage::entry(&mut self.recv, arg) { Entry::Occupied(entry) => Entry::Occupied(OccupiedEntry::occ(entry)),
  Entry::Vacant(entry) => Entry::Vacant(VacantEntry::vac(entry)) }` -/
  | elem (recv arg occ vac : String)
deriving DecidableEq

/-- Bodies of the arms of the methods of `OccupiedEntry`; `entry` is the bound variable. -/
inductive OccBody where
  /-- `entry.key` -/
  | keyField
  /-- `Ident::var(<..>::key(entry))` -/
  | keyOf (var : String) (κ : KeyTy)
  /-- `entry.m(args)` -/
  | inherent (m : OccMeth) (args : List String)
  /-- `<.. as OccupiedEntry<..>>::m(entry, args)` -/
  | assoc (κ : KeyTy) (m : OccMeth) (args : List String)
deriving DecidableEq

/-- Bodies of the arms of the methods of `VacantEntry`. -/
inductive VacBody where
  | keyField
  | keyOf (var : String) (κ : KeyTy)
  /-- `entry.insert(args)` -/
  | inherent (args : List String)
  /-- `<.. as VacantEntry<..>>::insert(entry, args)` -/
  | assoc (κ : KeyTy) (args : List String)
deriving DecidableEq

structure EntryCode where
  /-- Variants of `enum OccupiedEntry`; `none` is `SimpleOccupiedEntry`, `some κ` the entry of the element storage. -/
  occ : List (String × Option KeyTy)
  /-- Variants of `enum VacantEntry`. -/
  vac : List (String × Option KeyTy)
  entry : List (Pat × EntryBody)
  vacKey : List (String × VacBody)
  vacInsert : List (String × VacBody)
  occKey : List (String × OccBody)
  occGet : List (String × OccBody)
  occGetMut : List (String × OccBody)
  occIntoMut : List (String × OccBody)
  occInsert : List (String × OccBody)
  occRemove : List (String × OccBody)
  /-- Bodies of the inherent methods of `SimpleOccupiedEntry`; `SimpleVacantEntry` has only `insert`. -/
  simpleOcc : OccMeth → SomeFn

/-- The arms pushed for the tuple variants. -/
def complexArms {β : Type} (F : FieldSet) (arm : Field → KeyTy → β) : List (String × β) :=
  F.fields.filterMap fun f => f.kind.map fun κ => (f.name, arm f κ)

/-- `map_storage_entry`, 1853-2090. -/
def genEntry (F : FieldSet) : EntryCode where
  -- 1903, 1993-1996
  occ := ("Simple", none) :: complexArms F fun _ κ => some κ
  -- 1904, 1988-1991
  vac := ("Simple", none) :: complexArms F fun _ κ => some κ
  -- 1893-1895, 1906-1911, 2082-2086
  entry := F.fields.map fun f =>
    match f.kind with
    | none => (.path f.var, .optionToEntry f.name "key")
    | some _ => (.tuple f.var "key", .elem f.name "key" f.name f.name)
  -- 1916-1918, 2001-2006
  vacKey := ("Simple", .keyField) :: complexArms F fun f κ => .keyOf f.var κ
  -- 1919-1921, 2009-2014
  vacInsert := ("Simple", .inherent ["value"]) :: complexArms F fun _ κ => .assoc κ ["value"]
  -- 1926, 2020-2025
  occKey := ("Simple", .keyField) :: complexArms F fun f κ => .keyOf f.var κ
  -- 1927-1928, 2028-2033
  occGet := ("Simple", .inherent .get []) :: complexArms F fun _ κ => .assoc κ .get []
  -- 1929-1931, 2036-2041
  occGetMut := ("Simple", .inherent .getMut []) :: complexArms F fun _ κ => .assoc κ .getMut []
  -- 1932-1934, 2044-2049
  occIntoMut := ("Simple", .inherent .intoMut []) :: complexArms F fun _ κ => .assoc κ .intoMut []
  -- 1935, 2052-2057
  occInsert := ("Simple", .inherent .insert ["value"]) :: complexArms F fun _ κ => .assoc κ .insert ["value"]
  -- 1936-1938, 2060-2065
  occRemove := ("Simple", .inherent .remove []) :: complexArms F fun _ κ => .assoc κ .remove []
  -- 1961-1986
  simpleOcc
    | .get => .asRef
    | .getMut => .asMut
    | .intoMut => .intoMut
    | .insert => .replace
    | .remove => .take

/-! ## Values -/

section
variable (H : HashbrownApi) (V : Type)

/-- What a variant of `OccupiedEntry` holds. `recv` is the field the entry points into: for a unit variant the
bucket's slot, for a tuple variant the element storage. -/
inductive OccArg where
  | simple (key : DynKey) (recv : String)
  | elem (κ : KeyTy) (recv : String) (e : (mapStorage H V κ).Occ)

inductive VacArg where
  | simple (key : DynKey) (recv : String)
  | elem (κ : KeyTy) (recv : String) (e : (mapStorage H V κ).Vac)

/-- A value of `enum OccupiedEntry`. -/
structure DynOcc where
  tag : String
  arg : OccArg H V

/-- A value of `enum VacantEntry`. -/
structure DynVac where
  tag : String
  arg : VacArg H V

/-- Results of entry methods. -/
inductive EntryVal where
  | key (k : DynKey)
  | val (v : V)
  | addr (a : DynAddr H V)
end

variable {H : HashbrownApi} {V : Type}

/-! ## Meaning. `none` is stuck; `Res` tells panics and undefined behaviour. -/

/-- The body of an arm of `entry`. -/
def EntryBody.run (C : EntryCode) (env : Env H V) (S : Struct H V) :
    EntryBody → Option (Res ((DynOcc H V ⊕ DynVac H V) × Struct H V))
  | .optionToEntry recv arg =>
    -- 2069-2074
    match S.get recv, env.lookup arg, C.occ.lookup "Simple", C.vac.lookup "Simple" with
    | some (.slot o), some (.key k), some none, some none =>
      some ((OptionBucket.new o).map fun
        | .some => (.inl ⟨"Simple", .simple k recv⟩, S)
        | .none => (.inr ⟨"Simple", .simple k recv⟩, S))
    | _, _, _, _ => none
  | .elem recv arg occ vac =>
    match S.get recv, env.lookup arg, C.occ.lookup occ, C.vac.lookup vac with
    | some (.map κ s), some k, some (some κo), some (some κv) =>
      if κo = κ ∧ κv = κ then
        (k.asElem κ).map fun k => ((mapStorage H V κ).entry s k).map fun
          | (.inl e, s) => (.inl ⟨occ, .elem κ recv e⟩, S.set recv (.map κ s))
          | (.inr e, s) => (.inr ⟨vac, .elem κ recv e⟩, S.set recv (.map κ s))
      else none
    | _, _, _, _ => none

/-- `match key { arms }` of `entry`. -/
def runEntryArms (C : EntryCode) (key : DynKey) (S : Struct H V) :
    List (Pat × EntryBody) → Option (Res ((DynOcc H V ⊕ DynVac H V) × Struct H V))
  | [] => none
  | (p, e) :: arms =>
    if p.variant = key.var then (p.bind key).bind fun b => e.run C (b ++ [("key", .key key)]) S
    else runEntryArms C key S arms

/-- `entry(&mut self, key)`. -/
def EntryCode.runEntry (C : EntryCode) (key : DynKey) (S : Struct H V) :
    Option (Res ((DynOcc H V ⊕ DynVac H V) × Struct H V)) := runEntryArms C key S C.entry

/-- A `SomeBucket` function on the slot `recv`; `args` are the further arguments. -/
def SomeFn.run (recv : String) (S : Struct H V) (o : Option V) : SomeFn → List V → Option (Res (EntryVal H V × Struct H V))
  | .asRef, [] => some ((SomeBucket.asRef o).map fun v => (.val v, S))
  | .asMut, [] => some ((SomeBucket.asMut o).map fun _ => (.addr (.slot recv), S))
  | .intoMut, [] => some ((SomeBucket.intoMut o).map fun _ => (.addr (.slot recv), S))
  | .replace, [v] => some ((SomeBucket.replace o v).map fun p => (.val p.1, S.set recv (.slot p.2)))
  | .take, [] => some ((SomeBucket.take o).map fun p => (.val p.1, S.set recv (.slot p.2)))
  | _, _ => none

/-- A method of the occupied entry of an element storage. -/
def OccMeth.run (κ : KeyTy) (recv : String) (S : Struct H V) (s : (mapStorage H V κ).S) (e : (mapStorage H V κ).Occ) :
    OccMeth → List V → Option (Res (EntryVal H V × Struct H V))
  | .get, [] => some (((mapStorage H V κ).occGet e s).map fun v => (.val v, S))
  | .getMut, [] => some (((mapStorage H V κ).occGetMut e s).map fun a => (.addr (.map recv κ a), S))
  | .intoMut, [] => some (((mapStorage H V κ).occIntoMut e s).map fun a => (.addr (.map recv κ a), S))
  | .insert, [v] => some (((mapStorage H V κ).occInsert e s v).map fun p => (.val p.1, S.set recv (.map κ p.2)))
  | .remove, [] => some (((mapStorage H V κ).occRemove e s).map fun p => (.val p.1, S.set recv (.map κ p.2)))
  | _, _ => none

def lookupAll (env : List (String × V)) : List String → Option (List V)
  | [] => some []
  | x :: l => (env.lookup x).bind fun v => (lookupAll env l).map (v :: ·)

/-- The body of an arm of a method of `OccupiedEntry`; `env` holds the parameters. -/
def OccBody.run (C : EntryCode) (env : List (String × V)) (S : Struct H V) :
    OccBody → OccArg H V → Option (Res (EntryVal H V × Struct H V))
  | .keyField, .simple k _ => some (.ok (.key k, S))
  | .keyOf var κ, .elem κ' _ e => if h : κ' = κ then some (.ok (.key ⟨var, some ⟨κ, (mapStorage H V κ).occKey (h ▸ e)⟩⟩, S)) else none
  | .inherent m args, .simple _ recv =>
    match S.get recv with
    | some (.slot o) => (lookupAll env args).bind fun vs => (C.simpleOcc m).run recv S o vs
    | _ => none
  | .assoc κ m args, .elem κ' recv e =>
    if h : κ' = κ then
      (S.get recv).bind fun c => (c.asMap κ).bind fun s => (lookupAll env args).bind fun vs => m.run κ recv S s (h ▸ e) vs
    else none
  | _, _ => none

def VacBody.run (env : List (String × V)) (S : Struct H V) :
    VacBody → VacArg H V → Option (Res (EntryVal H V × Struct H V))
  | .keyField, .simple k _ => some (.ok (.key k, S))
  | .keyOf var κ, .elem κ' _ e => if h : κ' = κ then some (.ok (.key ⟨var, some ⟨κ, (mapStorage H V κ).vacKey (h ▸ e)⟩⟩, S)) else none
  | .inherent args, .simple _ recv =>
    -- 1950-1953
    match S.get recv, lookupAll env args with
    | some (.slot o), some [v] =>
      some ((NoneBucket.insert o v).map fun o => (.addr (.slot recv), S.set recv (.slot o)))
    | _, _ => none
  | .assoc κ args, .elem κ' recv e =>
    if h : κ' = κ then
      match (S.get recv).bind (Cell.asMap κ), lookupAll env args with
      | some s, some [v] =>
        some (((mapStorage H V κ).vacInsert (h ▸ e) s v).map fun p =>
          (.addr (.map recv κ p.1), S.set recv (.map κ p.2)))
      | _, _ => none
    else none
  | _, _ => none

/-- Call a method of `OccupiedEntry` whose arms are `arms`. -/
def EntryCode.runOcc (C : EntryCode) (arms : List (String × OccBody)) (env : List (String × V)) (e : DynOcc H V)
    (S : Struct H V) : Option (Res (EntryVal H V × Struct H V)) :=
  (arms.lookup e.tag).bind fun b => b.run C env S e.arg

/-- Call a method of `VacantEntry` whose arms are `arms`. -/
def EntryCode.runVac (_C : EntryCode) (arms : List (String × VacBody)) (env : List (String × V)) (e : DynVac H V)
    (S : Struct H V) : Option (Res (EntryVal H V × Struct H V)) :=
  (arms.lookup e.tag).bind fun b => b.run env S e.arg

end FixedMap.Gen
