import Verif.Proofs.TokenNamesUnits

/-!
# C87: the names in the emitted code

C80 says when all names in the emitted code mean what they are meant to; it is about the names listed in `Model/GenNames.lean`. Here: these are the names in the tokens that the
templates write, all of them and in the same order.
-/

set_option autoImplicit false

namespace FixedMap.Emit

/-- C87, enums with payloads. -/
theorem C87_any (cx : Cx) (E : String) (vs : List Variant) (hx : Plain cx E) (hv : AllPayload vs) :
    namesIn (implement cx vs) = leaves (Names.Any.code E (heads vs)) := Scan.names_implement hx hv

/-- C87, enums without payloads, with or without `#[key(bitset)]`. -/
theorem C87_units (cx : Cx) (E : String) (bitset : Bool) (en : List String) (ts : Toks) (hx : Plain cx E) (h : Units.implement cx bitset en = some ts) :
    namesIn ts = leaves (Names.Units.code E en.length bitset) := Units.Scan.names_implement hx en bitset h

/-! The assumption on payloads: met by paths, and by `Option` (or anything else with one parameter) of what meets it. -/

theorem C87_payload_path (x : String) (hx : ident x = true) (segs : List String) : Payload (x :: segs.flatMap fun s => ["::", s]) := by
  have tail : ∀ (segs : List String) (x n : String), ident n = false → scan x ((segs.flatMap fun s => ["::", s]) ++ [n]) = [] := by
    intro segs
    induction segs with
    | nil => intro x n hn; simp [scan_skip hn, scan_nil]
    | cons s segs ih =>
      intro x n hn
      simp only [List.flatMap_cons, List.cons_append, List.nil_append]
      rw [scan_skip (by decide), scan_path, ih s n hn]
  have head : ∀ p n, p ∈ ["", "<", ","] → n ∈ ["", "as", ",", ">"] → looked p x (((segs.flatMap fun s => ["::", s]) ++ [n]).headD "") = true := by
    intro p n hp hn
    simp only [List.mem_cons, List.not_mem_nil, or_false] at hp hn
    cases segs with
    | nil => rcases hp with rfl | rfl | rfl <;> rcases hn with rfl | rfl | rfl | rfl <;> simp [looked, field, variantDecl, after, hx]
    | cons s segs => rcases hp with rfl | rfl | rfl <;> simp [looked, field, variantDecl, after, hx]
  intro p hp n hn
  have hi : ident n = false := by
    simp only [List.mem_cons, List.not_mem_nil, or_false] at hn
    rcases hn with rfl | rfl | rfl <;> decide
  have h1 : scan p (x :: ((segs.flatMap fun s => ["::", s]) ++ [n])) = [x] := by
    rw [scan, head p n (List.mem_cons_of_mem _ hp) (List.mem_cons_of_mem _ hn), if_pos rfl, tail segs x n hi]
  have h2 : namesIn (x :: segs.flatMap fun s => ["::", s]) = [x] := by
    have hs : ∀ (l : Toks) (p : String), scan p (l ++ [""]) = scan p l := by
      intro l
      induction l with
      | nil => intro p; rfl
      | cons t l ih =>
        intro p
        have : (l ++ [""]).headD "" = l.headD "" := by cases l <;> rfl
        simp only [List.cons_append, scan, this, ih]
    rw [namesIn, ← hs, List.cons_append, scan, head "" "" (by simp) (by simp), if_pos rfl, tail segs x "" (by decide)]
  rw [List.cons_append, h1, h2]

theorem C87_payload_generic (x : String) (hx : ident x = true) (e : Toks) (he : Payload e) : Payload (x :: "<" :: (e ++ [">"])) := by
  intro p hp n hn
  have hi : ident n = false := by
    simp only [List.mem_cons, List.not_mem_nil, or_false] at hn
    rcases hn with rfl | rfl | rfl <;> decide
  have hl : ∀ p, p ∈ ["", "<", ","] → looked p x "<" = true := by
    intro p hp
    simp only [List.mem_cons, List.not_mem_nil, or_false] at hp
    rcases hp with rfl | rfl | rfl <;> simp [looked, field, variantDecl, after, hx]
  have he' := he "<" (by simp) ">" (by simp)
  have h1 : ∀ (p : String) (r : Toks), p ∈ ["", "<", ","] → scan p (x :: "<" :: (e ++ ">" :: r)) = x :: (namesIn e ++ scan ">" r) := by
    intro p r hp
    rw [scan, List.headD_cons, hl p hp, if_pos rfl, scan_skip (by decide), scan_snoc (by decide), he']
  have h2 := h1 p [n] (List.mem_cons_of_mem _ hp)
  have h3 := h1 "" [] (by simp)
  rw [scan_skip hi, scan_nil] at h2
  rw [scan_nil] at h3
  simp only [List.cons_append, List.append_assoc, List.nil_append, namesIn] at h2 h3 ⊢
  rw [h2, h3]

/-! ## Concrete cases -/

/-- `pub(crate) enum Part { One, Two(bool), Three(Option<module::Sub>) }` -/
def exNames : Cx := ⟨["Part"], ["pub", "(", "crate", ")"], ["'a"]⟩

theorem exNames_plain : Plain exNames "Part" := by
  refine ⟨rfl, by decide, fun p n hn => ?_, rfl⟩
  simp only [List.mem_cons, List.not_mem_nil, or_false] at hn
  rcases hn with rfl | rfl <;> simp only [exNames, List.cons_append, List.nil_append, scanLit, scan_nil]

def exNamesVs : List Variant := [⟨"One", none⟩, ⟨"Two", some ["bool"]⟩, ⟨"Three", some ["Option", "<", "module", "::", "Sub", ">"]⟩]

theorem exNames_payload : AllPayload exNamesVs := by
  intro v hv e he
  simp only [exNamesVs, List.mem_cons, List.not_mem_nil, or_false] at hv
  rcases hv with rfl | rfl | rfl
  · cases he
  · cases he; exact C87_payload_path "bool" (by decide) []
  · cases he; exact C87_payload_generic "Option" (by decide) _ (C87_payload_path "module" (by decide) ["Sub"])

/-- The heads of the paths that the user wrote. -/
example : heads exNamesVs = [none, some ["bool"], some ["Option", "module"]] := by decide

example : namesIn (implement exNames exNamesVs) = leaves (Names.Any.code "Part" [none, some ["bool"], some ["Option", "module"]]) :=
  C87_any exNames "Part" exNamesVs exNames_plain exNames_payload

/-- There are many of them; the first ones: `V` of `struct __MapStorage<V>` and of the field `_0: Option<V>`, then the field `_1: <bool as Key>::MapStorage<V>`. -/
example : (namesIn (implement exNames exNamesVs)).take 4 = ["V", "V", "bool", "V"] := by
  rw [C87_any exNames "Part" exNamesVs exNames_plain exNames_payload]; decide +kernel

/-- In `retain` of a bitset. -/
example : namesIn (quote! "fn retain<F>(&mut self, mut f: F) where F: FnMut(Part) -> bool { let mut update = 0; if self.data & 1 != 0 { if f(Part::One) { update |= 1; } } self.data = update; }") =
    ["F", "f", "F", "F", "FnMut", "Part", "bool", "update", "f", "Part", "update", "update"] := by decide +kernel

/-- The fields, methods, paths and declarations are not looked up. -/
example : namesIn (quote! "#[inline] fn key(&self) -> ::core::option::Option<Self> { Part::One; self._0.take(x); Item { start: 0, end: 1usize, _0: y } }") = ["Part", "x", "Item", "y"] := by
  decide +kernel

end FixedMap.Emit
