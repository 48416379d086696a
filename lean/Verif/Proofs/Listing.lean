import Verif.Proofs.SetQuirks

/-! # Listings that also contain absent `()` keys

`keys()` of maps and the calls made by `retain` of sets. -/

set_option autoImplicit false
set_option linter.unusedSimpArgs false

namespace FixedMap

/-- `l` lists the elements in `elems`, those for which `pres` holds, in their order, interleaved with the remaining
elements for which `ph` holds; all in an order compatible with `R`. -/
structure Listing {K : Type} (l elems : List K) (pres ph : K → Bool) (R : K → K → Prop) : Prop where
  mem : ∀ x, x ∈ l ↔ pres x = true ∨ ph x = true
  filter : l.filter pres = elems
  nodup : l.Nodup
  sorted : l.Pairwise R

theorem Listing.congr {K : Type} {l l' elems elems' : List K} {pres pres' ph ph' : K → Bool} {R R' : K → K → Prop}
    (h : Listing l elems pres ph R) (h1 : l = l') (h2 : elems = elems') (h3 : ∀ k, pres k = pres' k)
    (h4 : ∀ k, ph k = ph' k) (h5 : ∀ a b, R a b → R' a b) : Listing l' elems' pres' ph' R' := by
  obtain rfl := h1; obtain rfl := h2; obtain rfl : pres = pres' := funext h3; obtain rfl : ph = ph' := funext h4
  exact ⟨h.mem, h.filter, h.nodup, h.sorted.imp (h5 _ _)⟩

/-- A list without phantoms. -/
theorem Listing.exact {K : Type} {l : List K} {pres ph : K → Bool} {R : K → K → Prop}
    (mem : ∀ x, x ∈ l ↔ pres x = true) (nodup : l.Nodup) (sorted : l.Pairwise R) (none : ∀ x, ph x = false) :
    Listing l l pres ph R :=
  ⟨fun x => by rw [mem, none]; simp, by rw [List.filter_eq_self]; exact fun x hx => (mem x).mp hx, nodup, sorted⟩

theorem Listing.unit (b : Bool) {R : Unit → Unit → Prop} :
    Listing [()] (flagList () b) (fun _ => b) (fun _ => true) R :=
  ⟨fun x => by simp, by cases b <;> rfl, by simp, by simp⟩

theorem Listing.flag {K : Type} (k : K) (b : Bool) (e : ∀ x : K, x = k) {R : K → K → Prop} :
    Listing (flagList k b) (flagList k b) (fun _ => b) (fun _ => false) R :=
  Listing.exact (fun x => by rw [mem_flagList]; simp [e x]) (nodup_flagList _ _)
    (by cases b <;> simp [flagList]) (fun _ => rfl)

theorem Listing.opt {K : Type} {l elems : List K} {pres ph : K → Bool} {R : K → K → Prop}
    (h : Listing l elems pres ph R) (b : Bool) :
    Listing (l.map some ++ flagList none b) (elems.map some ++ flagList none b)
      (fun x => Option.elim x b pres) (fun x => Option.elim x false ph) (optBefore R) := by
  refine ⟨?_, ?_, ?_, sorted_opt b h.sorted⟩
  · rintro (_ | x)
    · simp [mem_flagList]
    · simp [mem_flagList, h.mem]
  · rw [List.filter_append, List.filter_map]
    congr 1
    · rw [← h.filter]; rfl
    · cases b <;> rfl
  · refine nodup_append_of (nodup_map_of_inj _ (fun _ _ h => Option.some.inj h) h.nodup) (nodup_flagList _ _) ?_
    intro x hx
    obtain ⟨y, _, rfl⟩ := List.mem_map.mp hx
    simp [mem_flagList]

theorem Listing.sum {A B : Type} {l elems : List A} {pres ph : A → Bool} {R : A → A → Prop}
    {l' elems' : List B} {pres' ph' : B → Bool} {R' : B → B → Prop}
    (h : Listing l elems pres ph R) (h' : Listing l' elems' pres' ph' R') :
    Listing (l.map Sum.inl ++ l'.map Sum.inr) (elems.map Sum.inl ++ elems'.map Sum.inr)
      (Sum.elim pres pres') (Sum.elim ph ph') (sumBefore R R') := by
  refine ⟨?_, ?_, nodup_sumKeys h.nodup h'.nodup, sorted_sum h.sorted h'.sorted⟩
  · rintro (x | x) <;> simp [h.mem, h'.mem]
  · rw [List.filter_append, List.filter_map, List.filter_map]
    congr 1
    · rw [← h.filter]; rfl
    · rw [← h'.filter]; rfl

/-- `Listing` of the keys of a map. -/
abbrev KeyListing {K V : Type} {M : MapCore K V} (L : CoreLaws M) (keysL : M.S → List K) (ph : K → Bool)
    (R : K → K → Prop) : Prop :=
  ∀ s, Listing (keysL s) ((L.entries s).map Prod.fst) (M.containsKey s) ph R

theorem keyListing_exact {K V : Type} {M : MapCore K V} (L : CoreLaws M) (keysL : M.S → List K) (ph : K → Bool)
    (R : K → K → Prop) (h : ∀ s, keysL s = (L.entries s).map Prod.fst) (hs : SortedBy L.entries R)
    (hp : ∀ k, ph k = false) : KeyListing L keysL ph R := by
  intro s
  rw [h s]
  refine Listing.exact ?_ (L.nodup_keys s) (List.pairwise_map.mpr (hs s)) hp
  intro k
  rw [L.containsKey_eq, Option.isSome_iff_exists, List.mem_map]
  constructor
  · rintro ⟨⟨k', v⟩, h, rfl⟩
    exact ⟨v, (L.mem_entries s _ _).mp h⟩
  · rintro ⟨v, h⟩
    exact ⟨(k, v), (L.mem_entries s _ _).mpr h, rfl⟩

theorem keyListing_opt {K V : Type} {M : MapStorage K V} (L : CoreLaws M.toMapCore) {keysL : M.S → List K}
    {ph : K → Bool} {R : K → K → Prop} (h : KeyListing L keysL ph R) :
    KeyListing (optCore L) (fun s => (keysL s.some).map some ++ (if s.none.isSome then [none] else []))
      (fun x => Option.elim x false ph) (optBefore R) := by
  intro s
  refine ((h s.some).opt s.none.isSome).congr rfl ?_ ?_ (fun _ => rfl) (fun _ _ h => h)
  · show _ = (renameKeys some (L.entries s.some) ++ slotEntries none s.none).map Prod.fst
    rw [List.map_append, renameKeys_fst, slotEntries_fst]
    rfl
  · rintro (_ | k) <;> rfl

theorem keyListing_simple {K V : Type} {M : MapFields K V} (L : CoreLaws M.toMapCore) {keysL : M.S → List K}
    {ph : K → Bool} {R : K → K → Prop} (h : KeyListing L keysL ph R) :
    KeyListing (simpleCore L) (fun s => (if s.1.isSome then [.inl ()] else []) ++ (keysL s.2).map .inr)
      (Sum.elim (fun _ => false) ph) (sumBefore (fun _ _ => False) R) := by
  intro s
  refine ((Listing.flag () s.1.isSome (fun _ => rfl) (R := fun _ _ => False)).sum (h s.2)).congr ?_ ?_ ?_
    (fun _ => rfl) (fun _ _ h => h)
  · obtain ⟨s1, s2⟩ := s; cases s1 <;> rfl
  · show _ = (renameKeys Sum.inl ((unitCore V).entries s.1) ++ renameKeys Sum.inr (L.entries s.2)).map Prod.fst
    rw [List.map_append, renameKeys_fst, renameKeys_fst]
    obtain ⟨s1, s2⟩ := s; cases s1 <;> rfl
  · rintro (_ | k) <;> rfl

theorem keyListing_complex {A K V : Type} {N : MapStorage A V} {M : MapFields K V} (LA : CoreLaws N.toMapCore)
    (L : CoreLaws M.toMapCore) {keysA : N.S → List A} {keysL : M.S → List K} {pha : A → Bool} {ph : K → Bool}
    {Q : A → A → Prop} {R : K → K → Prop} (ha : KeyListing LA keysA pha Q) (h : KeyListing L keysL ph R) :
    KeyListing (complexCore LA L) (fun s => (keysA s.1).map .inl ++ (keysL s.2).map .inr)
      (Sum.elim pha ph) (sumBefore Q R) := by
  intro s
  refine ((ha s.1).sum (h s.2)).congr rfl ?_ ?_ (fun _ => rfl) (fun _ _ h => h)
  · show _ = (renameKeys Sum.inl (LA.entries s.1) ++ renameKeys Sum.inr (L.entries s.2)).map Prod.fst
    rw [List.map_append, renameKeys_fst, renameKeys_fst]
  · rintro (_ | k) <;> rfl

mutual
theorem keyListing (H : Hashbrown) (V : Type) : (κ : KeyTy) →
    KeyListing (mapCore H V κ) (mapIters H V κ).keysL κ.phantom κ.mayPrecede
  | .bool => keyListing_exact _ _ _ _ ((mapIters H V .bool).keysL_eq rfl) (entries_sorted H V .bool) (fun _ => rfl)
  | .unit => fun s => by
    refine (Listing.unit s.isSome (R := fun _ _ => False)).congr rfl ?_ (fun _ => rfl) (fun _ => rfl) (fun _ _ h => h)
    revert s; exact fun (s : Option V) => by cases s <;> rfl
  | .opt κ => keyListing_opt _ (keyListing H V κ)
  | .prim p => keyListing_exact _ _ _ _ ((mapIters H V (.prim p)).keysL_eq rfl) (entries_sorted H V (.prim p)) (fun _ => rfl)
  | .units n => keyListing_exact _ _ _ _ ((mapIters H V (.units n)).keysL_eq rfl) (entries_sorted H V (.units n)) (fun _ => rfl)
  | .bitset n w h => keyListing_exact _ _ _ _ ((mapIters H V (.bitset n w h)).keysL_eq rfl)
      (entries_sorted H V (.bitset n w h)) (fun _ => rfl)
  | .enum fs => keyFieldListing H V fs
theorem keyFieldListing (H : Hashbrown) (V : Type) : (fs : Fields) →
    KeyListing (fieldsCore H V fs) (fieldsIters H V fs).keysL fs.phantom fs.mayPrecede
  | .nil => fun _ => ⟨fun x => x.elim, rfl, List.nodup_nil, List.Pairwise.nil⟩
  | .simple fs => keyListing_simple _ (keyFieldListing H V fs)
  | .complex κ fs => keyListing_complex _ _ (keyListing H V κ) (keyFieldListing H V fs)
end

/-! ## `retain` of sets -/

theorem visitListing_exact {T : Type} {M : SetCore T} (L : SetLaws M) (ph : T → Bool) (R : T → T → Prop) (s : M.S)
    (h : L.visits s = L.elems s) (hs : (L.elems s).Pairwise R) (hp : ∀ k, ph k = false) :
    Listing (L.visits s) (L.elems s) (M.contains s) ph R := by
  rw [h]
  exact Listing.exact (L.mem_elems s) (L.nodup s) hs hp

mutual
theorem visitListing (H : Hashbrown) : (κ : KeyTy) → ∀ s,
    Listing ((setLaws H κ).visits s) ((setLaws H κ).elems s) ((setStorage H.api κ).contains s) κ.phantom κ.mayPrecede
  | .bool => fun s => visitListing_exact (setLaws H .bool) _ _ s (visits_eq H .bool rfl s) (elems_sorted H .bool s) (fun _ => rfl)
  | .unit => fun s => (Listing.unit s (R := fun _ _ => False)).congr rfl rfl (fun _ => rfl) (fun _ => rfl) (fun _ _ h => h)
  | .opt κ => fun s => ((visitListing H κ s.some).opt s.none).congr rfl rfl (by rintro (_ | k) <;> rfl) (fun _ => rfl)
      (fun _ _ h => h)
  | .prim p => fun s =>
    visitListing_exact (setLaws H (.prim p)) _ _ s (visits_eq H (.prim p) rfl s) (elems_sorted H (.prim p) s) (fun _ => rfl)
  | .units n => fun s =>
    visitListing_exact (setLaws H (.units n)) _ _ s (visits_eq H (.units n) rfl s) (elems_sorted H (.units n) s) (fun _ => rfl)
  | .bitset n w h => fun s =>
    visitListing_exact (setLaws H (.bitset n w h)) _ _ s (visits_eq H (.bitset n w h) rfl s)
      (elems_sorted H (.bitset n w h) s) (fun _ => rfl)
  | .enum fs => visitFieldListing H fs
theorem visitFieldListing (H : Hashbrown) : (fs : Fields) → ∀ s,
    Listing ((setFieldsLaws H fs).visits s) ((setFieldsLaws H fs).elems s) ((setFields H.api fs).contains s) fs.phantom
      fs.mayPrecede
  | .nil => fun _ => ⟨fun x => x.elim, rfl, List.nodup_nil, List.Pairwise.nil⟩
  | .simple fs => fun s =>
    ((Listing.flag () s.1 (fun _ => rfl) (R := fun _ _ => False)).sum (visitFieldListing H fs s.2)).congr
      (by obtain ⟨s1, s2⟩ := s; cases s1 <;> rfl) (by obtain ⟨s1, s2⟩ := s; cases s1 <;> rfl)
      (by rintro (_ | k) <;> rfl) (fun _ => rfl) (fun _ _ h => h)
  | .complex κ fs => fun s =>
    ((visitListing H κ s.1).sum (visitFieldListing H fs s.2)).congr rfl rfl (by rintro (_ | k) <;> rfl) (fun _ => rfl)
      (fun _ _ h => h)
end

end FixedMap
