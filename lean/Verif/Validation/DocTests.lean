import Verif.Model.Text
import Verif.Model.OrdHash
import Verif.Spec.HashbrownRef

/-!
# The repository's own examples, run on the model

The assertions made by the documentation examples and integration tests of the repository, checked on the model. The Rust
code itself was not run: what is compared is the text of those assertions. These are tests of the model (is it the right
program?), not proofs of properties, and no entry of MANIFEST.json rests on them.
-/

set_option autoImplicit false

namespace FixedMap.DocTests

/-- hashbrown as association lists. -/
abbrev H : HashbrownApi := assocHashbrown.api

/-! ## Notation: sequences of calls -/

section
variable {K V : Type} (M : MapStorage K V)

/-- `map.insert(k, v);` -/
def ins (m : M.S) (k : K) (v : V) : M.S := (Map.insert M m k v).2
/-- A new map with some insertions. -/
def build (l : List (K × V)) : M.S := l.foldl (fun m p => ins M m p.1 p.2) (Map.new M)
/-- `map.iter().collect()` -/
def entries (m : M.S) : Option (List (K × V)) := (Map.iter M).I.drain 20 ((Map.iter M).init m)
/-- `map.keys().collect()` -/
def keys (m : M.S) : Option (List K) := (Map.keys M).I.drain 20 ((Map.keys M).init m)
/-- `map.values().collect()` -/
def values (m : M.S) : Option (List V) := (Map.values M).I.drain 20 ((Map.values M).init m)
/-- `n` items from the back. -/
def back {S α : Type} (it : IterOf S α) (s : S) (n : Nat) : Option (List (Option α)) :=
  (it.I.run (List.replicate n .back) (it.init s)).map Prod.fst
/-- Write through all references handed out by `values_mut()`. -/
def modifyAll (refs : Option (List M.Addr)) (f : Nat → V → V) (m : M.S) : Option M.S :=
  refs.map fun l => (l.zipIdx).foldl (fun m p => match M.read m p.1 with
    | some v => M.write m p.1 (f p.2 v)
    | none => m) m
/-- The map after `entry(k)` followed by some operation on the entry. -/
def onEntry {α : Type} (m : M.S) (k : K) (f : Entry.T M → M.S → Res α) : Res α :=
  (Map.entry M m k).bind fun p => f p.1 p.2
/-- `map.entry(k).and_modify(f).or_insert(v)`: the value behind the returned reference and the map. -/
def modifyOr (m : M.S) (k : K) (f : V → V) (v : V) : Res (Option V × M.S) :=
  (Map.entry M m k).bind fun p =>
    (Entry.andModify M p.1 p.2 (fun (st : Unit) v => (st, f v, true)) ()).bind fun q =>
      match q.1 with
      | none => .panic
      | some e => (Entry.orInsert M e q.2.1 v).map fun r => (M.read r.2.1 r.1, r.2.1)
end

/-- `enum { First, Second }`, `enum { One, Two }`, … -/
abbrev two : KeyTy := .units 2
abbrev three : KeyTy := .units 3
abbrev M2 : MapStorage (Fin 2) Int := mapStorage H Int two
abbrev M3 : MapStorage (Fin 3) Int := mapStorage H Int three

/-- `enum MyKey { First(bool), Second }` -/
abbrev fb : KeyTy := .enum (.complex .bool (.simple .nil))
abbrev MB : MapStorage fb.Key Int := mapStorage H Int fb
def first (b : Bool) : fb.Key := Sum.inl b
def second : fb.Key := Sum.inr (Sum.inl ())

/-! ## src/map.rs -/

/-- map.rs 37-87 and set.rs 26-78: `enum { Simple, Composite(Part), String(&str), Number(u32), Singleton(()),
Option(Option<Part>), Boolean(bool) }` -/
abbrev big : KeyTy := .enum (.simple (.complex two (.complex (.prim .str) (.complex (.prim .u32) (.complex .unit
  (.complex (.opt two) (.complex .bool .nil)))))))
def kSimple : big.Key := Sum.inl ()
def kComposite (p : Fin 2) : big.Key := Sum.inr (Sum.inl p)
def kString (s : String) : big.Key := Sum.inr (Sum.inr (Sum.inl s))
def kNumber (n : BitVec 32) : big.Key := Sum.inr (Sum.inr (Sum.inr (Sum.inl n)))
def kSingleton : big.Key := Sum.inr (Sum.inr (Sum.inr (Sum.inr (Sum.inl ()))))
def kOption (o : Option (Fin 2)) : big.Key := Sum.inr (Sum.inr (Sum.inr (Sum.inr (Sum.inr (Sum.inl o)))))
def kBoolean (b : Bool) : big.Key := Sum.inr (Sum.inr (Sum.inr (Sum.inr (Sum.inr (Sum.inr (Sum.inl b))))))

example :
    let M := mapStorage H Nat big
    let map := build M [(kSimple, 1), (kComposite 0, 2), (kString "foo", 3), (kNumber 1, 4), (kSingleton, 5),
      (kOption none, 6), (kOption (some 0), 7), (kBoolean true, 8)]
    Map.get M map kSimple = some 1 ∧ Map.get M map (kComposite 0) = some 2 ∧ Map.get M map (kComposite 1) = none ∧
    Map.get M map (kString "foo") = some 3 ∧ Map.get M map (kString "bar") = none ∧
    Map.get M map (kNumber 1) = some 4 ∧ Map.get M map (kNumber 2) = none ∧ Map.get M map kSingleton = some 5 ∧
    Map.get M map (kOption none) = some 6 ∧ Map.get M map (kOption (some 0)) = some 7 ∧
    Map.get M map (kOption (some 1)) = none ∧ Map.get M map (kBoolean true) = some 8 ∧
    Map.get M map (kBoolean false) = none :=
  ⟨rfl, rfl, rfl, by decide, by decide, rfl, rfl, rfl, rfl, rfl, rfl, rfl, rfl⟩

/-- map.rs 121-136 -/
example : let m := build M2 [(0, 1)]; Map.get M2 m 0 = some 1 ∧ Map.get M2 m 1 = none := ⟨rfl, rfl⟩

/-- map.rs 139-160: `enum { Simple, Composite(Part) }` -/
example :
    let M := mapStorage H Int (.enum (.simple (.complex two .nil)))
    let m := build M [(Sum.inl (), 1), (Sum.inr (Sum.inl (0 : Fin 2)), 2)]
    Map.get M m (Sum.inl ()) = some 1 ∧ Map.get M m (Sum.inr (Sum.inl (0 : Fin 2))) = some 2 ∧
      Map.get M m (Sum.inr (Sum.inl (1 : Fin 2))) = none := ⟨rfl, rfl, rfl⟩

/-- map.rs 194-207 -/
example : entries M3 (build M3 [(0, 1), (1, 2)]) = some [(0, 1), (1, 2)] := rfl

/-- map.rs 220-235 -/
example : let m := build M3 [(0, 1), (1, 2)]
    keys M3 m = some [0, 1] ∧ back (Map.keys M3) m 3 = some [some 1, some 0, none] := ⟨rfl, rfl⟩

/-- map.rs 240-257: `enum { First, Second(bool), Third }` -/
example :
    let M := mapStorage H Int (.enum (.simple (.complex .bool (.simple .nil))))
    let m := build M [(Sum.inl (), 1), (Sum.inr (Sum.inl false), 2)]
    keys M m = some [Sum.inl (), Sum.inr (Sum.inl false)] ∧
      back (Map.keys M) m 3 = some [some (Sum.inr (Sum.inl false)), some (Sum.inl ()), none] := ⟨rfl, rfl⟩

/-- map.rs 269-284 -/
example : let m := build M3 [(0, 1), (1, 2)]
    values M3 m = some [1, 2] ∧ back (Map.values M3) m 3 = some [some 2, some 1, none] := ⟨rfl, rfl⟩

/-- map.rs 289-304: `enum { First(bool), Second, Third }` -/
example :
    let M := mapStorage H Int (.enum (.complex .bool (.simple (.simple .nil))))
    let m := build M [(Sum.inl false, 1), (Sum.inr (Sum.inl ()), 2)]
    values M m = some [1, 2] ∧ back (Map.values M) m 3 = some [some 2, some 1, none] := ⟨rfl, rfl⟩

/-- map.rs 317-335 -/
example :
    let m := build M2 [(0, 1), (1, 2)]
    let refs := ((Map.iterMut M2).I.drain 9 ((Map.iterMut M2).init m)).map (·.map Prod.snd)
    (modifyAll M2 refs (fun _ v => v * 2) m).bind (entries M2) = some [(0, 2), (1, 4)] := rfl

/-- map.rs 340-358 -/
example :
    let m := build MB [(first true, 1), (second, 2)]
    let refs := ((Map.iterMut MB).I.drain 9 ((Map.iterMut MB).init m)).map (·.map Prod.snd)
    (modifyAll MB refs (fun _ v => v * 2) m).bind (entries MB) = some [(first true, 2), (second, 4)] := rfl

/-- map.rs 370-397, forwards and backwards -/
example :
    let m := build M2 [(0, 2), (1, 5)]
    (modifyAll M2 ((Map.valuesMut M2).I.drain 9 ((Map.valuesMut M2).init m)) (fun i v => v * (i + 1)) m).bind (values M2) =
      some [2, 10] ∧
    (modifyAll M2 ((back (Map.valuesMut M2) m 2).map (·.filterMap id)) (fun i v => v * (i + 1)) m).bind (values M2) =
      some [4, 5] := ⟨rfl, rfl⟩

/-- map.rs 402-429 -/
example :
    let m := build MB [(first false, 2), (second, 5)]
    (modifyAll MB ((Map.valuesMut MB).I.drain 9 ((Map.valuesMut MB).init m)) (fun i v => v * (i + 1)) m).bind (values MB) =
      some [2, 10] ∧
    (modifyAll MB ((back (Map.valuesMut MB) m 2).map (·.filterMap id)) (fun i v => v * (i + 1)) m).bind (values MB) =
      some [4, 5] := ⟨rfl, rfl⟩

/-- map.rs 440-452, 463-475, 480-492 -/
example :
    Map.containsKey M2 (build M2 [(0, 7)]) 0 = true ∧ Map.containsKey M2 (build M2 [(0, 7)]) 1 = false ∧
    Map.get M2 (build M2 [(0, 7)]) 0 = some 7 ∧ Map.get M2 (build M2 [(0, 7)]) 1 = none ∧
    Map.get MB (build MB [(first true, 7)]) (first true) = some 7 ∧ Map.get MB (build MB [(first true, 7)]) second = none :=
  ⟨rfl, rfl, rfl, rfl, rfl, rfl⟩

/-- map.rs 503-519 -/
example : let m := build M2 [(0, 7)]
    (Map.getMut M2 m 0).map (fun a => Map.get M2 (M2.write m a 8) 0) = some (some 8) := rfl

/-- map.rs 524-541: `enum { First(bool), Second(()), Third }` -/
example :
    let M := mapStorage H Int (.enum (.complex .bool (.complex .unit (.simple .nil))))
    let m := build M [(Sum.inl true, 7)]
    (Map.getMut M m (Sum.inl true)).map (fun a => Map.get M (M.write m a 8) (Sum.inl true)) = some (some 8) := rfl

/-- map.rs 557-573 -/
example :
    let m0 := Map.new M2
    let r1 := Map.insert M2 m0 0 10
    let r2 := Map.insert M2 r1.2 1 11
    let r3 := Map.insert M2 r2.2 1 12
    r1.1 = none ∧ Map.isEmpty M2 r1.2 = false ∧ r3.1 = some 11 ∧ Map.get M2 r3.2 1 = some 12 := ⟨rfl, rfl, rfl, rfl⟩

/-- map.rs 584-597 -/
example :
    let r1 := Map.remove M2 (build M2 [(0, 7)]) 0
    r1.1 = some 7 ∧ (Map.remove M2 r1.2 0).1 = none := ⟨rfl, rfl⟩

/-- map.rs 610-628 -/
example :
    let m := build M2 [(0, 42), (1, -10)]
    let r := (Map.retain M2 (fun (st : Unit) _ v => (st, v, some (decide (v > 0)))) m ()).s
    Map.len M2 r = 1 ∧ Map.get M2 r 0 = some 42 ∧ Map.get M2 r 1 = none := ⟨rfl, rfl, rfl⟩

/-- map.rs 633-663 -/
example :
    let m := build MB [(first true, 42), (first false, -31), (second, 100)]
    let other := Map.clone MB id m
    let r := (Map.retain MB (fun (st : Unit) _ v => (st, v, some (decide (v > 0)))) m ()).s
    let q := (Map.retain MB (fun (st : Unit) k v => (st, v, some (k.isLeft))) other ()).s
    Map.len MB m = 3 ∧ Map.len MB r = 2 ∧ Map.get MB r (first true) = some 42 ∧ Map.get MB r (first false) = none ∧
    Map.get MB r second = some 100 ∧ Map.len MB q = 2 ∧ Map.get MB q (first true) = some 42 ∧
    Map.get MB q (first false) = some (-31) ∧ Map.get MB q second = none :=
  ⟨rfl, rfl, rfl, rfl, rfl, rfl, rfl, rfl, rfl⟩

/-- map.rs 678-691, 701-713 -/
example :
    Map.isEmpty M2 (Map.clear M2 (build M2 [(0, 7)])).1 = true ∧ Map.isEmpty M2 (Map.new M2) = true ∧
      Map.isEmpty M2 (build M2 [(0, 1)]) = false := ⟨rfl, rfl, rfl⟩

/-- map.rs 718-726, tests/empty.rs: `enum MyKey {}` -/
example : let M := mapStorage H Nat (.units 0); Map.isEmpty M (Map.new M) = true := rfl

/-- map.rs 736-755 -/
example :
    let m1 := ins M2 (Map.new M2) 0 42
    let m2 := ins M2 m1 0 42
    Map.len M2 (Map.new M2) = 0 ∧ Map.len M2 m1 = 1 ∧ Map.len M2 m2 = 1 ∧ Map.len M2 (Map.remove M2 m2 0).2 = 0 :=
  ⟨rfl, rfl, rfl, rfl⟩

/-- map.rs 760-779 -/
example :
    let m1 := ins MB (Map.new MB) (first true) 42
    let m2 := ins MB m1 (first false) 42
    Map.len MB (Map.new MB) = 0 ∧ Map.len MB m1 = 1 ∧ Map.len MB m2 = 2 ∧
      Map.len MB (Map.remove MB m2 (first true)).2 = 1 := ⟨rfl, rfl, rfl, rfl⟩

/-- map.rs 790-809, tests/entry.rs 25-45: count even and odd numbers -/
example :
    let r : Res M2.S := [3, 45, 3, 23, 2, 10, 59, 11, 51, 70].foldl (fun r n =>
      r.bind fun m => (modifyOr M2 m (if n % 2 = 0 then 0 else 1) (· + 1) 1).map Prod.snd) (.ok (Map.new M2))
    r.map (fun m => (Map.get M2 m 0, Map.get M2 m 1)) = .ok (some 3, some 7) := rfl

/-- map.rs 814-829, tests/entry.rs 47-67 -/
example :
    let M := mapStorage H (List Nat) fb
    let r := (Map.entry M (Map.new M) (first true)).bind fun p =>
      (Entry.orDefault M p.1 p.2 (fun (st : Unit) => (st, some [])) ()).bind fun q =>
        match q.1 with
        | none => .panic
        | some a =>
          let m := M.write q.2.1 a [1]
          (Map.entry M m second).bind fun p =>
            (Entry.orInsertWith M p.1 p.2 (fun (st : Unit) => (st, some (List.replicate 8 2))) ()).bind fun q =>
              match q.1 with
              | none => .panic
              | some a => .ok (M.write q.2.1 a (((M.read q.2.1 a).getD []).take 4))
    r.map (fun m => (Map.get M m (first true), Map.get M m second)) = .ok (some [1], some [2, 2, 2, 2]) := rfl

/-- map.rs 841-861 -/
example :
    let a := build MB [(first true, 1)]
    let b := ins MB (Map.clone MB id a) second 2
    Map.eq MB (· == ·) a b = false ∧ Map.get MB a (first true) = some 1 ∧ Map.get MB a second = none ∧
      Map.get MB b (first true) = some 1 ∧ Map.get MB b second = some 2 := ⟨rfl, rfl, rfl, rfl, rfl⟩

/-- map.rs 882-902, 915-927 -/
example :
    let a := build M2 [(0, 1)]
    let b := ins M2 a 1 2
    Map.eq M2 (· == ·) a b = false ∧ Map.get M2 a 1 = none ∧ Map.get M2 b 0 = some 1 ∧ Map.get M2 b 1 = some 2 ∧
      Map.eq M2 (· == ·) (Map.default M2) (Map.new M2) = true := ⟨rfl, rfl, rfl, rfl, rfl⟩

/-- map.rs 943-955 -/
example : Map.debug M2 (fun k => if k = 0 then "First" else "Second") (fun v => toString v) 9 (build M2 [(0, 42)]) =
    some "{First: 42}" := by decide

/-- map.rs 972-989, 994-1010 -/
example :
    let a := build M2 [(0, 42)]
    let c := build MB [(first true, 42)]
    Map.eq M2 (· == ·) a a = true ∧ Map.eq M2 (· == ·) a (ins M2 a 1 42) = false ∧
      Map.eq MB (· == ·) c (Map.clone MB id c) = true ∧ Map.eq MB (· == ·) c (ins MB (Map.clone MB id c) second 42) = false :=
  ⟨rfl, rfl, rfl, rfl⟩

/-- map.rs 1094-1114, 1174-1192 -/
example :
    let pcmp : Int → Int → Option Ordering := fun a b => some (compare a b)
    let a := build M3 [(0, 1)]
    let b := build M3 [(2, 1)]
    let empty := Map.new M3
    unitsMapPartialCmp pcmp a b = some .lt ∧ unitsMapPartialCmp pcmp empty a = some .lt ∧
      unitsMapPartialCmp pcmp empty b = some .lt ∧ unitsMapCmp compare (build M2 [(0, 1)]) (build M2 [(1, 1)]) = .lt :=
  ⟨rfl, rfl, rfl, rfl⟩

/-- map.rs 1281-1303 -/
example :
    let m := build M3 [(0, 1), (2, 3)]
    ((Map.intoIter M3).I.run [.front, .front, .front] ((Map.intoIter M3).init m)).map Prod.fst =
      some [some (0, 1), some (2, 3), none] ∧
    back (Map.intoIter M3) m 3 = some [some (2, 3), some (0, 1), none] := ⟨rfl, rfl⟩

/-- map.rs 1308-1330: `enum { First(bool), Second, Third }` -/
example :
    let M := mapStorage H Int (.enum (.complex .bool (.simple (.simple .nil))))
    let m := build M [(Sum.inl false, 1), (Sum.inr (Sum.inr (Sum.inl ())), 3)]
    ((Map.intoIter M).I.run [.front, .front, .front] ((Map.intoIter M).init m)).map Prod.fst =
      some [some (Sum.inl false, 1), some (Sum.inr (Sum.inr (Sum.inl ())), 3), none] ∧
    back (Map.intoIter M) m 3 = some [some (Sum.inr (Sum.inr (Sum.inl ())), 3), some (Sum.inl false, 1), none] :=
  ⟨rfl, rfl⟩

/-- map.rs 1349-1365 -/
example : Map.eq M2 (· == ·) (Map.fromIter M2 [(0, 1), (1, 2), (0, 3)]).1 (build M2 [(1, 2), (0, 3)]) = true := rfl

/-! ## src/map/entry.rs and src/map/storage.rs -/

/-- entry.rs 25-40 -/
example :
    (onEntry M2 (Map.new M2) 0 fun e s => (Entry.orInsert M2 e s 3).bind fun r =>
      onEntry M2 r.2.1 0 fun e s => (Entry.orInsert M2 e s 10).map fun q =>
        (Map.get M2 r.2.1 0, Map.get M2 (M2.write q.2.1 q.1 (((M2.read q.2.1 q.1).getD 0) * 2)) 0)) =
      .ok (some 3, some 6) := rfl

/-- entry.rs 45-60 -/
example :
    (onEntry MB (Map.new MB) (first false) fun e s => (Entry.orInsert MB e s 3).bind fun r =>
      onEntry MB r.2.1 (first false) fun e s => (Entry.orInsert MB e s 10).map fun q =>
        (Map.get MB r.2.1 (first false), Map.get MB (MB.write q.2.1 q.1 (((MB.read q.2.1 q.1).getD 0) * 2)) (first false))) =
      .ok (some 3, some 6) := rfl

/-- entry.rs 75-104: `or_insert_with` -/
example :
    (onEntry M2 (Map.new M2) 0 fun e s => (Entry.orInsertWith M2 e s (fun (st : Unit) => (st, some 3)) ()).map fun r =>
      Map.get M2 r.2.1 0) = .ok (some 3) ∧
    (onEntry MB (Map.new MB) (first false) fun e s =>
      (Entry.orInsertWith MB e s (fun (st : Unit) => (st, some 3)) ()).map fun r => Map.get MB r.2.1 (first false)) =
      .ok (some 3) := ⟨rfl, rfl⟩

/-- entry.rs 123-152: `or_insert_with_key` -/
example :
    (onEntry M2 (Map.new M2) 0 fun e s =>
      (Entry.orInsertWithKey M2 e s (fun (st : Unit) k => (st, some (if k = 0 then 3 else 4))) ()).map fun r =>
      Map.get M2 r.2.1 0) = .ok (some 3) ∧
    (onEntry MB (Map.new MB) (first false) fun e s =>
      (Entry.orInsertWithKey MB e s (fun (st : Unit) k => (st, some (if k = first false then 3 else 4))) ()).map fun r =>
        Map.get MB r.2.1 (first false)) = .ok (some 3) := ⟨rfl, rfl⟩

/-- entry.rs 172-198: `key` -/
example :
    (onEntry M2 (Map.new M2) 0 fun e _ => .ok (Entry.key M2 e)) = .ok 0 ∧
    (onEntry MB (Map.new MB) (first false) fun e _ => .ok (Entry.key MB e)) = .ok (first false) := ⟨rfl, rfl⟩

/-- entry.rs 212-256 and tests/entry.rs 9-23: `and_modify` -/
example :
    ((modifyOr M2 (Map.new M2) 0 (· + 1) 42).bind fun r => (modifyOr M2 r.2 0 (· + 1) 42).map fun q => (r.1, q.1)) =
      .ok (some 42, some 43) ∧
    ((modifyOr MB (Map.new MB) (first true) (· + 1) 42).bind fun r =>
      (modifyOr MB r.2 (first true) (· + 1) 42).map fun q => (r.1, q.1)) = .ok (some 42, some 43) := ⟨rfl, rfl⟩

/-- tests/entry.rs 69-89 -/
example :
    let M := mapStorage H Int big
    let m := build M [(kComposite 0, 1)]
    (onEntry M m (kComposite 1) fun e s =>
      (Entry.orDefault M e s (fun (st : Unit) => (st, some 0)) ()).bind fun r =>
        (modifyOr M r.2.1 (kComposite 0) (· + 1) 12).map fun q => (r.1.bind (M.read r.2.1), q.1)) =
      .ok (some 0, some 2) := rfl

/-- entry.rs 277-306: `or_default` -/
example :
    (onEntry M2 (Map.new M2) 0 fun e s => (Entry.orDefault M2 e s (fun (st : Unit) => (st, some 0)) ()).map fun r =>
      Map.get M2 r.2.1 0) = .ok (some 0) ∧
    (onEntry MB (Map.new MB) (first false) fun e s =>
      (Entry.orDefault MB e s (fun (st : Unit) => (st, some 0)) ()).map fun r => Map.get MB r.2.1 (first false)) =
      .ok (some 0) := ⟨rfl, rfl⟩

/-- The occupied entry of a key, if it is one. -/
def occ {K V α : Type} (M : MapStorage K V) (m : M.S) (k : K) (f : M.Occ → M.S → Res α) : Res α :=
  onEntry M m k fun e s => match e with
    | .inl e => f e s
    | .inr _ => .panic

/-- The vacant entry of a key, if it is one. -/
def vac {K V α : Type} (M : MapStorage K V) (m : M.S) (k : K) (f : M.Vac → M.S → Res α) : Res α :=
  onEntry M m k fun e s => match e with
    | .inl _ => .panic
    | .inr e => f e s

/-- storage.rs 129-173, 178-222: `OccupiedEntry::key` and `get` -/
example :
    occ M2 (build M2 [(0, 12)]) 0 (fun e s => (M2.occGet e s).map fun v => (M2.occKey e, v)) = .ok (0, 12) ∧
    occ MB (build MB [(first false, 12)]) (first false) (fun e s => (MB.occGet e s).map fun v => (MB.occKey e, v)) =
      .ok (first false, 12) := ⟨rfl, rfl⟩

/-- storage.rs 253-281: `get_mut` used repeatedly -/
example :
    occ MB (build MB [(first false, 12)]) (first false) (fun e s =>
      (MB.occGetMut e s).bind fun a =>
        let s := MB.write s a (((MB.read s a).getD 0) * 2)
        (MB.occGet e s).bind fun v =>
          (MB.occGetMut e s).bind fun a =>
            let s := MB.write s a (((MB.read s a).getD 0) - 10)
            (MB.occGet e s).map fun w => (v, w)) = .ok (24, 14) := rfl

/-- storage.rs 286-328: `into_mut` -/
example :
    occ M2 (build M2 [(0, 12)]) 0 (fun e s => (M2.occIntoMut e s).map fun a =>
      Map.get M2 (M2.write s a (((M2.read s a).getD 0) + 10)) 0) = .ok (some 22) ∧
    occ MB (build MB [(first false, 12)]) (first false) (fun e s => (MB.occIntoMut e s).map fun a =>
      Map.get MB (MB.write s a (((MB.read s a).getD 0) + 10)) (first false)) = .ok (some 22) := ⟨rfl, rfl⟩

/-- storage.rs 333-375: `insert` -/
example :
    occ M2 (build M2 [(0, 12)]) 0 (fun e s => (M2.occInsert e s 10).map fun r => (r.1, Map.get M2 r.2 0)) =
      .ok (12, some 10) ∧
    occ MB (build MB [(first false, 12)]) (first false) (fun e s =>
      (MB.occInsert e s 10).map fun r => (r.1, Map.get MB r.2 (first false))) = .ok (12, some 10) := ⟨rfl, rfl⟩

/-- storage.rs 380-422: `remove` -/
example :
    occ M2 (build M2 [(0, 12)]) 0 (fun e s => (M2.occRemove e s).map fun r => (r.1, Map.containsKey M2 r.2 0)) =
      .ok (12, false) ∧
    occ MB (build MB [(first true, 12)]) (first true) (fun e s =>
      (MB.occRemove e s).map fun r => (r.1, Map.containsKey MB r.2 (first true))) = .ok (12, false) := ⟨rfl, rfl⟩

/-- storage.rs 432-517: `VacantEntry::key` and `insert` -/
example :
    vac M2 (Map.new M2) 0 (fun e s => (M2.vacInsert e s 37).map fun r => (M2.vacKey e, M2.read r.2 r.1, Map.get M2 r.2 0)) =
      .ok (0, some 37, some 37) ∧
    vac MB (Map.new MB) (first false) (fun e s =>
      (MB.vacInsert e s 37).map fun r => (MB.vacKey e, MB.read r.2 r.1, Map.get MB r.2 (first false))) =
      .ok (first false, some 37, some 37) := ⟨rfl, rfl⟩

/-! ## src/option_bucket.rs -/

/-- option_bucket.rs 228-236, 246-254, 347-356, 400-410 -/
example :
    SomeBucket.new (some 2) = .ok (some ()) ∧ SomeBucket.replace (some 2) 5 = .ok (2, some 5) ∧
    SomeBucket.take (some [1, 2]) = .ok ([1, 2], none) ∧ NoneBucket.new (none : Option Nat) = .ok (some ()) ∧
    NoneBucket.insert none 1 = .ok (some 1) ∧ OptionBucket.new (none : Option Nat) = .ok .none ∧
    OptionBucket.new (some 12) = .ok .some := ⟨rfl, rfl, rfl, rfl, rfl, rfl, rfl⟩

/-! ## src/set.rs -/

abbrev S2 : SetStorage (Fin 2) := setStorage H two
abbrev S3 : SetStorage (Fin 3) := setStorage H three
abbrev SB : SetStorage fb.Key := setStorage H fb
/-- `#[key(bitset)] enum { First, Second }` -/
abbrev B2 : SetStorage (Fin 2) := setStorage H (.bitset 2 8 rfl)
/-- `#[key(bitset)] enum { First, Second, Third }` -/
abbrev B3 : SetStorage (Fin 3) := setStorage H (.bitset 3 8 rfl)

/-- A new set with some insertions. -/
def sbuild {T : Type} (M : SetStorage T) (l : List T) : M.S := l.foldl (fun s x => (FSet.insert M s x).2) (FSet.new M)
/-- `set.iter().collect()` -/
def elements {T : Type} (M : SetStorage T) (s : M.S) : Option (List T) := (FSet.iter M).I.drain 20 ((FSet.iter M).init s)

/-- set.rs 26-78 -/
example :
    let M := setStorage H big
    let set := sbuild M [kSimple, kComposite 0, kString "foo", kNumber 1, kSingleton, kOption none, kOption (some 0),
      kBoolean true]
    FSet.contains M set kSimple = true ∧ FSet.contains M set (kComposite 0) = true ∧
    FSet.contains M set (kComposite 1) = false ∧ FSet.contains M set (kString "foo") = true ∧
    FSet.contains M set (kString "bar") = false ∧ FSet.contains M set (kNumber 1) = true ∧
    FSet.contains M set (kNumber 2) = false ∧ FSet.contains M set kSingleton = true ∧
    FSet.contains M set (kOption none) = true ∧ FSet.contains M set (kOption (some 0)) = true ∧
    FSet.contains M set (kOption (some 1)) = false ∧ FSet.contains M set (kBoolean true) = true ∧
    FSet.contains M set (kBoolean false) = false :=
  ⟨by decide, by decide, by decide, by decide, by decide, by decide, by decide, by decide, by decide, by decide, by decide,
    by decide, by decide⟩

/-- set.rs 91-104, 189-202 -/
example : FSet.contains S2 (sbuild S2 [0]) 0 = true ∧ FSet.contains S2 (sbuild S2 [0]) 1 = false := by decide

/-- set.rs 109-130: `enum { Simple, Composite(Part) }` -/
example :
    let M := setStorage H (.enum (.simple (.complex two .nil)))
    let s := sbuild M [Sum.inl (), Sum.inr (Sum.inl (0 : Fin 2))]
    FSet.contains M s (Sum.inl ()) = true ∧ FSet.contains M s (Sum.inr (Sum.inl (0 : Fin 2))) = true ∧
      FSet.contains M s (Sum.inr (Sum.inl (1 : Fin 2))) = false := by decide

/-- set.rs 164-178, 935-949, 963-977 -/
example : elements S3 (sbuild S3 [0, 1]) = some [0, 1] ∧
    (FSet.intoIter S3).I.drain 9 ((FSet.intoIter S3).init (sbuild S3 [0, 1])) = some [0, 1] := by decide

/-- set.rs 216-232 -/
example :
    let r := FSet.insert S2 (FSet.new S2) 0
    let s := (FSet.insert S2 r.2 1).2
    r.1 = true ∧ FSet.isEmpty S2 r.2 = false ∧ (FSet.insert S2 s 1).1 = false ∧ FSet.contains S2 s 1 = true := by decide

/-- set.rs 243-256 -/
example : let r := FSet.remove S2 (sbuild S2 [0]) 0; r.1 = true ∧ (FSet.remove S2 r.2 0).1 = false := by decide

/-- set.rs 269-287 -/
example :
    let r := (FSet.retain S2 (fun (st : Unit) k => (st, some (k == 0))) (sbuild S2 [0, 1]) ()).s
    FSet.len S2 r = 1 ∧ FSet.contains S2 r 0 = true ∧ FSet.contains S2 r 1 = false := by decide

/-- set.rs 292-325: `enum { First(bool), Second(bool) }` -/
example :
    let M := setStorage H (.enum (.complex .bool (.complex .bool .nil)))
    let s := sbuild M [Sum.inl true, Sum.inl false, Sum.inr (Sum.inl true), Sum.inr (Sum.inl false)]
    let r := (FSet.retain M (fun (st : Unit) k => (st, some (k == Sum.inl true || k == Sum.inr (Sum.inl true)))) s ()).s
    let q := (FSet.retain M (fun (st : Unit) k => (st, some k.isLeft)) s ()).s
    FSet.len M s = 4 ∧ FSet.len M r = 2 ∧ FSet.contains M r (Sum.inl true) = true ∧ FSet.contains M r (Sum.inl false) = false ∧
    FSet.contains M r (Sum.inr (Sum.inl true)) = true ∧ FSet.contains M r (Sum.inr (Sum.inl false)) = false ∧
    FSet.len M q = 2 ∧ FSet.contains M q (Sum.inl true) = true ∧ FSet.contains M q (Sum.inl false) = true ∧
    FSet.contains M q (Sum.inr (Sum.inl true)) = false ∧ FSet.contains M q (Sum.inr (Sum.inl false)) = false := by decide

/-- set.rs 339-352, 362-375, 385-398 -/
example :
    FSet.isEmpty S2 (FSet.clear S2 (sbuild S2 [0])) = true ∧ FSet.isEmpty S2 (FSet.new S2) = true ∧
    FSet.isEmpty S2 (sbuild S2 [0]) = false ∧ FSet.len S2 (FSet.new S2) = 0 ∧ FSet.len S2 (sbuild S2 [0]) = 1 := by decide

/-- set.rs 415-430, intersection.rs 16-31 -/
example :
    ((Intersection.new S3 (FSet.fromIter S3 [0]) (FSet.fromIter S3 [0, 1, 1])).toList S3 9 9).map
      (fun l => FSet.eq S3 (FSet.fromIter S3 l) (FSet.fromIter S3 [0])) = some true := by decide

/-- set.rs 456-473, 483-500: `#[key(bitset)]` -/
example :
    bitsetAsRaw (FSet.new B2) = 0 ∧ bitsetAsRaw (sbuild B2 [0]) ≠ 0 ∧
      FSet.eq B2 (sbuild B2 [0]) (bitsetFromRaw (bitsetAsRaw (sbuild B2 [0]))) = true := by decide

/-- set.rs 513-533 -/
example :
    let a := sbuild SB [first true]
    let b := (FSet.insert SB (FSet.clone SB a) second).2
    FSet.eq SB a b = false ∧ FSet.contains SB a (first true) = true ∧ FSet.contains SB a second = false ∧
      FSet.contains SB b (first true) = true ∧ FSet.contains SB b second = true := by decide

/-- set.rs 554-574, 587-599, 643-660, 665-681 -/
example :
    let a := sbuild S2 [0]
    let c := sbuild SB [first true]
    FSet.eq S2 a (FSet.insert S2 a 1).2 = false ∧ FSet.eq S2 a a = true ∧
      FSet.eq S2 (FSet.default S2) (FSet.new S2) = true ∧ FSet.eq SB c (FSet.clone SB c) = true ∧
      FSet.eq SB c (FSet.insert SB (FSet.clone SB c) second).2 = false := by decide

/-- set.rs 615-627 -/
example : FSet.debug S2 (fun k => if k = 0 then "First" else "Second") 9 (sbuild S2 [0]) = some "{First}" := by decide

/-- set.rs 763-783, 843-861 and key.rs 70-93: the array sets -/
example :
    let a := sbuild S3 [0]
    let b := sbuild S3 [2]
    let c := sbuild S3 [0, 2]
    unitsSetPartialCmp a b = some .lt ∧ unitsSetPartialCmp (FSet.new S3) a = some .lt ∧
      unitsSetPartialCmp (FSet.new S3) b = some .lt ∧ unitsSetPartialCmp c b = some .lt ∧
      unitsSetPartialCmp a c = some .lt ∧ unitsSetCmp (sbuild S2 [0]) (sbuild S2 [1]) = .lt := by decide

/-- set.rs 1073-1085 -/
example : FSet.eq S3 (FSet.fromArray S3 #v[0, 1, 2]) (FSet.fromArray S3 #v[0, 1, 2]) = true := by decide

/-- src/lib.rs 26-50: `enum MyKey { North, South, East, West }` -/
example :
    let M := mapStorage H Nat (.units 4)
    let N := setStorage H (.units 4)
    let map := build M [((0 : Fin 4), 200), ((1 : Fin 4), 100)]
    let set := sbuild N [(0 : Fin 4), (1 : Fin 4)]
    Map.get M map (0 : Fin 4) = some 200 ∧ Map.get M map (2 : Fin 4) = none ∧
      FSet.contains N set (1 : Fin 4) = true ∧ FSet.contains N set (2 : Fin 4) = false := by decide

end FixedMap.DocTests
