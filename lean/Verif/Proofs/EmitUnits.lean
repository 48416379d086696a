import Verif.Spec.EmitUnits
import Verif.Proofs.EmitIter

set_option autoImplicit false
set_option linter.unusedSimpArgs false
set_option linter.unusedVariables false

namespace FixedMap.Emit.Units

open FixedMap.GenUnits (MapCode SetCode BitsetCode)

variable (cx : Cx)

theorem peel_sep {α : Type} (sep : Toks) (l : List α) {f g : α → Toks} (h : ∀ x, f x = g x) {t u : Toks} (ht : t = u) :
    sepBy sep (l.map f) ++ t = sepBy sep (l.map g) ++ u := by
  rw [funext h, ht]

theorem peel_sep_zip {α β : Type} (sep : Toks) (l : List α) (m : List β) {f g : α → β → Toks} (h : ∀ x y, f x y = g x y) {t u : Toks} (ht : t = u) :
    sepBy sep (List.zipWith f l m) ++ t = sepBy sep (List.zipWith g l m) ++ u := by
  rw [funext fun x => funext (h x), ht]

theorem names_eq (en : List String) : (List.range en.length).map fieldName = (GenUnits.names en).map fun n => [n] := by
  simp only [GenUnits.names, List.map_map]
  rfl

theorem replicate_eq (en : List String) (x : Toks) : List.replicate en.length x = en.map fun _ => x := by
  induction en with
  | nil => rfl
  | cons a l ih => simp only [List.length_cons, List.replicate_succ, List.map_cons, ih]

theorem zip_twice {γ : Type} (f : Nat → String × Nat → γ) (ns : List Nat) (vs : List String) :
    List.zipWith f ns (vs.zip ns) = List.zipWith (fun n v => f n (v, n)) ns vs := by
  induction ns generalizing vs with
  | nil => simp
  | cons n ns ih => cases vs <;> simp [ih]

theorem expr_add (f : String → GenUnits.Expr) (l : List String) (e : GenUnits.Expr) :
    Print.expr (l.foldl (fun e n => .add e (f n)) e) = Print.expr e ++ l.flatMap fun n => "+" :: Print.expr (f n) := by
  induction l generalizing e with
  | nil => simp
  | cons a l ih => simp [ih, Print.expr]

theorem expr_and (f : String → GenUnits.Expr) (l : List String) (e : GenUnits.Expr) :
    Print.expr (l.foldl (fun e n => .and e (f n)) e) = Print.expr e ++ l.flatMap fun n => "&&" :: Print.expr (f n) := by
  induction l generalizing e with
  | nil => simp
  | cons a l ih => simp [ih, Print.expr]

macro "units_norm" : tactic => `(tactic| simp only [Print.entryItems, Print.mapImpl, Print.mapItems, Print.mapRetain, Print.mapStorage, Print.setItems, Print.setStorage, Print.setRetain,
  Print.setCode, Print.exprFn, Print.matchFn, Print.array, Print.iterBody, Print.closure, Print.ifSome, Print.opt, Print.refTy, Print.flatMapTy, Print.flattenTy, Print.lets,
  Print.by_, Print.expr, Print.slotFn, Print.variant, expr_add, expr_and, replicate_eq,
  Cx.option, Cx.clone_t, Cx.copy_t, Cx.partial_eq_t, Cx.eq_t, Cx.hash_t, Cx.hasher_t, Cx.partial_ord_t, Cx.ord_t, Cx.ordering, Cx.iterator_t, Cx.key_t, Cx.map_storage_t,
  Cx.set_storage_t, Cx.raw_storage_t, Cx.mem, Cx.entry_enum, Cx.occupied_entry_t, Cx.vacant_entry_t, Cx.option_bucket_none, Cx.option_bucket_some, Cx.option_bucket_option,
  Cx.iterator_cmp, Cx.iterator_cmp_bool, Cx.iterator_partial_cmp, Cx.iterator_partial_cmp_bool, Cx.iterator_flat_map, Cx.iterator_flatten, Cx.array_into_iter,
  Cx.into_iterator_t, Cx.slice_iter, Cx.slice_iter_mut, core, crate,
  List.map_map, Function.comp_def, List.flatten_cons, List.flatten_nil, flatten_map, List.flatMap_map, List.flatMap_cons, List.flatMap_nil, map_zip, List.map_zipWith,
  List.zipWith_map, List.zipWith_map_left, List.zipWith_map_right, List.zipWith_cons_cons, List.zipWith_nil_left, List.length_map,
  List.append_assoc, List.cons_append, List.nil_append, List.append_nil, Bool.false_eq_true, ↓reduceIte, if_true, if_false])

macro "units_peel" : tactic => `(tactic| repeat' first
  | with_reducible rfl
  | with_reducible refine peel_cons _ ?_
  | with_reducible refine peel_block _ (fun x => ?_) ?_
  | with_reducible refine peel_zip _ _ (fun x y => ?_) ?_
  | with_reducible refine peel_sep _ _ (fun x => ?_) ?_
  | with_reducible refine peel_sep_zip _ _ _ (fun x y => ?_) ?_
  | with_reducible refine peel_app _ ?_)

set_option maxRecDepth 20000 in
theorem entry_eq : impl_entry cx ["__MapStorage"] = Print.entryItems cx := by
  simp only [impl_entry]
  units_norm

set_option maxRecDepth 20000 in
theorem map_eq (en : List String) : impl_map cx en ["__MapStorage"] ((GenUnits.names en).map fun n => [n]) =
    Print.mapItems cx (GenUnits.genMap en) ++ Print.mapStorage cx (GenUnits.genMap en) := by
  simp only [impl_map, GenUnits.genMap]
  generalize GenUnits.names en = ns
  units_norm
  units_peel

set_option maxRecDepth 20000 in
theorem set_eq (en : List String) : impl_set cx en ["__SetStorage"] ((GenUnits.names en).map fun n => [n]) = Print.setCode cx (GenUnits.genSet en) := by
  simp only [impl_set, GenUnits.genSet]
  generalize GenUnits.names en = ns
  units_norm
  units_peel

theorem bits_eq (en : List String) : determine_bits en = (FixedMap.determineBits en.length).map fun w => ["u" ++ Nat.repr w] := by
  simp only [determine_bits, FixedMap.determineBits]
  repeat' split
  all_goals rfl

theorem mapM_map {α β γ : Type} (f : α → Option β) (g : β → γ) (l : List α) : (l.mapM fun x => (f x).map g) = (l.mapM f).map (List.map g) := by
  induction l with
  | nil => rfl
  | cons a l ih =>
    simp only [List.mapM_cons, ih, Option.bind_eq_bind, Option.pure_def]
    cases f a <;> simp
    cases l.mapM f <;> simp

theorem numbers_eq (en : List String) : numbersOf en = (GenUnits.numbers en).map (List.map fun n => [Nat.repr n]) := mapM_map _ _ _

set_option maxRecDepth 20000 in
theorem bitset_eq (en : List String) : impl_bitset cx en ["__SetStorage"] = (GenUnits.genBitset en).map (Print.bitsetCode cx en.length) := by
  simp only [impl_bitset, GenUnits.genBitset, bits_eq, numbers_eq]
  cases FixedMap.determineBits en.length with
  | none => rfl
  | some w =>
    cases GenUnits.numbers en with
    | none => rfl
    | some ns =>
      simp only [Option.map_some, Option.bind_some, Option.some.injEq, Print.bitsetCode]
      units_norm
      simp only [zip_twice]
      units_peel

theorem implement_eq (bitset : Bool) (en : List String) :
    implement cx bitset en = (setOf bitset en).map fun s => Print.code cx (GenUnits.genMap en) s := by
  simp only [implement, names_eq, entry_eq, map_eq, set_eq, bitset_eq, setOf]
  cases bitset with
  | false =>
    simp only [Bool.false_eq_true, ↓reduceIte, Option.map_some, Print.code, List.append_assoc]
    rfl
  | true =>
    simp only [↓reduceIte]
    cases GenUnits.genBitset en with
    | none => rfl
    | some c =>
      simp only [Option.map_some, Print.code, List.append_assoc]
      rfl

end FixedMap.Emit.Units
