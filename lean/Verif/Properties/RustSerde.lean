import Verif.Model.RustSerde
import Verif.Properties.RustApi

/-!
# C94: deserialize and expecting
-/

set_option autoImplicit false

namespace FixedMap.Rust

/-- **C94** `deserialize` asks the deserializer for a map or a sequence, hands it its visitor, and returns its answer; `expecting` writes one string and returns what comes back. -/
theorem C94_deserialize :
    ∃ P Q, parseFile Text.map = some P ∧ parseFile Text.set = some Q ∧
      ∀ {O σ : Type} (answer : String → String → O) (write : String → O) (u : σ) (n : Nat),
        obs (run (handForeign answer write) P (n + 40) "Map" "Deserialize" "deserialize" [.ext .deserializer] ⟨[], u, []⟩) = .ok (.ext (.out (answer "deserialize_map" "MapVisitor"))) none u [] ∧
        obs (run (handForeign answer write) Q (n + 40) "Set" "Deserialize" "deserialize" [.ext .deserializer] ⟨[], u, []⟩) = .ok (.ext (.out (answer "deserialize_seq" "SeqVisitor"))) none u [] ∧
        obs (run (handForeign answer write) P (n + 40) "MapVisitor" "Visitor" "expecting" [.unit, .ext .formatter] ⟨[], u, []⟩) = .ok (.ext (.out (write "write_str"))) none u [] ∧
        obs (run (handForeign answer write) Q (n + 40) "SeqVisitor" "Visitor" "expecting" [.unit, .ext .formatter] ⟨[], u, []⟩) = .ok (.ext (.out (write "write_str"))) none u [] :=
  ⟨_, _, Progs.map_parsed, Progs.set_parsed, fun _ _ _ _ => ⟨by kernel_rfl, by kernel_rfl, by kernel_rfl, by kernel_rfl⟩⟩

/-- What a format does that knows maps and sequences: it calls the method of the visitor for what it was asked for, and any other question is wrong. -/
def format {α : Type} (wrong : α) (visit : String → String → α) (method visitor : String) : α :=
  if method = "deserialize_map" then visit visitor "visit_map" else if method = "deserialize_seq" then visit visitor "visit_seq" else wrong

/-- **C94** `deserialize` as a whole: with a format that calls the visitor, which is the one of the text, the result for a map is that of the model's `visitMap`, and for a set that of `visitSeq`, for all
entries that the format has, and all errors. -/
theorem C94_deserialized :
    ∃ P Q, parseFile Text.map = some P ∧ parseFile Text.set = some Q ∧
      (∀ {K V E σ : Type} (M : MapStorage K V) (u : σ) (l : List (Except E (K × V))) (n : Nat),
        let visit (ty m : String) := obs (run (deForeign E M) P (n + 40 + l.length) ty "Visitor" m [.unit, .ext (.calls l)] ⟨[], u, []⟩)
        ∃ r, obs (run (handForeign (format .stuck visit) fun _ => .stuck) P (n + 40) "Map" "Deserialize" "deserialize" [.ext .deserializer] ⟨[], u, []⟩) = .ok (.ext (.out r)) none u [] ∧
          match Map.visitMap M l with
          | .ok q => r = .ok (.con "Result" "Ok" [mapV (.ext (.store q.1))]) none u (q.2.map .val)
          | .error e => ∃ d, r = .ok (.con "Result" "Err" [.ext (.err e)]) none u d) ∧
      ∀ {T E σ : Type} (M : SetStorage T) (u : σ) (l : List (Except E T)) (n : Nat),
        let visit (ty m : String) := obs (run (setDeForeign E M) Q (n + 40 + l.length) ty "Visitor" m [.unit, .ext (.calls l)] ⟨[], u, []⟩)
        obs (run (handForeign (format .stuck visit) fun _ => .stuck) Q (n + 40) "Set" "Deserialize" "deserialize" [.ext .deserializer] ⟨[], u, []⟩) =
          .ok (.ext (.out (.ok (resultV (fun s => setV (.ext (.store s))) (fun e => .ext (.err e)) (FSet.visitSeq M l)) none u []))) none u [] := by
  refine ⟨_, _, Progs.map_parsed, Progs.set_parsed, ?_, ?_⟩
  · intro K V E σ M u l n visit
    have h : ∀ {O : Type} (answer : String → String → O) (write : String → O),
        obs (run (handForeign answer write) Progs.map (n + 40) "Map" "Deserialize" "deserialize" [.ext .deserializer] ⟨[], u, []⟩) = .ok (.ext (.out (answer "deserialize_map" "MapVisitor"))) none u [] := by
      intro O answer write
      kernel_rfl
    refine ⟨visit "MapVisitor" "visit_map", h _ _, ?_⟩
    have hv := visitMapText (σ := σ) (E := E) M n u l
    split
    · rename_i q e
      rw [e] at hv
      exact hv
    · rename_i q e
      rw [e] at hv
      exact hv
  · intro T E σ M u l n visit
    have h : ∀ {O : Type} (answer : String → String → O) (write : String → O),
        obs (run (handForeign answer write) Progs.set (n + 40) "Set" "Deserialize" "deserialize" [.ext .deserializer] ⟨[], u, []⟩) = .ok (.ext (.out (answer "deserialize_seq" "SeqVisitor"))) none u [] := by
      intro O answer write
      kernel_rfl
    refine (h _ _).trans ?_
    exact congrArg (fun r => Obs.ok (Val.ext (VX.out r)) none u []) (visitSeqText (σ := σ) (E := E) M n u l)

/-! ## Examples -/

/-- The two entries of a format, and a set of `bool` from them. -/
example : FSet.visitSeq (E := Unit) boolSet [.ok true, .ok true] = .ok (FSet.insert boolSet (FSet.new boolSet) true).2 := by rfl

end FixedMap.Rust
