import Verif.Proofs.Macro
import Verif.Spec.DeriveAttrs

/-!
# Running the text of attrs.rs and of the paths
-/

set_option autoImplicit false
set_option linter.unusedSimpArgs false

namespace FixedMap.DeriveText.Attrs

open Emit (Toks)
open Emit.Macro (Path Attr Args)

local macro "drfl" : tactic => `(tactic| (show _ = _; derive_rfl))

/-! ## Steps -/

section
variable (E : Emit.Macro.Env) (Y : File) (n : Nat) (s : St)

theorem run_seq (a b : Ex) : run E Y (n + 1) (.seq a b) s = (run E Y n a s).bind fun _ s => run E Y n b s := rfl

theorem run_ite (c a b : Ex) : run E Y (n + 1) (.ite c a b) s = (run E Y n c s).bind fun c s =>
    match c with
    | .bool true => run E Y n a s
    | .bool false => run E Y n b s
    | _ => .wrong := rfl

theorem run_let (x : String) (e b : Ex) : run E Y (n + 1) (.letIn (.bind x) e b) s = (run E Y n e s).bind fun v s => run E Y n b (s.set x v) := rfl

theorem run_nested (b : Ex) (x : String) : run E Y (n + 1) (.method (.path ["attr"]) "parse_nested_meta" [.lambda [.bind x] b]) s = (run E Y n (.path ["attr"]) s).bind fun v s =>
    match v with
    | .attr a =>
      match parseWith E (fun p s => returned s.vars.length (run E Y n b (s.set x (.input p)))) a.args s with
      | some (s, none) => .val (.ok .unit) s
      | some (s, some m) => .val (.err (.error m)) s
      | none => .wrong
    | _ => .wrong := rfl

theorem run_for (x : String) (e b : Ex) : run E Y (n + 1) (.for (.bind x) e b) s = (run E Y n e s).bind fun v s =>
    match v with
    | .attrs l => each (fun a s => run E Y n b (s.set x (.attr a))) s.vars.length l s
    | .parts l => each (fun t s => run E Y n b (s.set x (.str t))) s.vars.length l s
    | _ => .wrong := rfl
end

/-! ## syn's parser with a closure -/

/-- If the closure does what `logic` does, then so does the parser. -/
theorem nestedWith_eq (E : Emit.Macro.Env) (f : Path → St → Option (St × Option String)) (st : Bool → List String → St)
    (hf : ∀ p b e, f p (st b e) = if p.isIdent "bitset" then some (st true e, none) else some (st b e, some "Unsupported attribute")) :
    ∀ (n : Nat) (ts : Toks) (b : Bool) (e : List String), ts.length < n →
      nestedWith E f n ts (st b e) =
        some (st (Emit.Macro.nestedMeta E ts ⟨b, e⟩).1.bitset (Emit.Macro.nestedMeta E ts ⟨b, e⟩).1.errors, (Emit.Macro.nestedMeta E ts ⟨b, e⟩).2) := by
  intro n
  induction n with
  | zero => intro ts b e h; omega
  | succ n ih =>
    intro ts b e h
    rw [nestedWith]
    cases hm : Emit.Macro.metaPath E ts with
    | error m => rw [Emit.Macro.nestedMeta_error hm]
    | ok p =>
      rcases p with ⟨path, rest⟩
      rw [Emit.Macro.nestedMeta_ok hm]
      dsimp only
      rw [hf]
      unfold Emit.Macro.logic
      cases hp : path.isIdent "bitset" with
      | false => rfl
      | true =>
        simp only [if_true]
        cases ha : Emit.Macro.afterItem E rest with
        | error m => rfl
        | ok o =>
          cases o with
          | none => rfl
          | some r =>
            have h1 := Emit.Macro.metaPath_lt E ts path rest hm
            have h2 := Emit.Macro.afterItem_le E rest r ha
            exact ih r true e (by omega)

theorem parseWith_eq (E : Emit.Macro.Env) (f : Path → St → Option (St × Option String)) (st : Bool → List String → St)
    (hf : ∀ p b e, f p (st b e) = if p.isIdent "bitset" then some (st true e, none) else some (st b e, some "Unsupported attribute"))
    (args : Args) (b : Bool) (e : List String) :
    parseWith E f args (st b e) =
      some (st (Emit.Macro.parseNestedMeta E args ⟨b, e⟩).1.bitset (Emit.Macro.parseNestedMeta E args ⟨b, e⟩).1.errors, (Emit.Macro.parseNestedMeta E args ⟨b, e⟩).2) := by
  cases args with
  | none => rfl
  | nameValue v => rfl
  | list ts =>
    cases ts with
    | nil => rfl
    | cons t ts => exact nestedWith_eq E f st hf _ (t :: ts) b e (by simp)

/-! ## attrs.rs -/

/-- The variables in the loop, before and after `attr` is set. -/
def outer (l : List Attr) (b : Bool) (e : List String) : St := ⟨[("cx", .cx l), ("opts", .opts b)], e⟩

def inner (l : List Attr) (a : Attr) (b : Bool) (e : List String) : St := ⟨[("cx", .cx l), ("opts", .opts b), ("attr", .attr a)], e⟩

def closureBody : Ex :=
  .seq (.ite (.call ["=="] [.field (.path ["input"]) "path", .path ["symbol", "BITSET"]])
      (.seq (.call ["="] [.field (.path ["opts"]) "bitset", .call ["Some"] [.method (.field (.path ["input"]) "input") "span" []]]) .unit)
      (.seq (.ret (.call ["Err"] [.call ["syn", "Error", "new"] [.method (.field (.path ["input"]) "input") "span" [], .str "Unsupported attribute"]])) .unit))
    (.call ["Ok"] [.unit])

def loopBody : Ex :=
  .seq (.ite (.call ["!="] [.method (.path ["attr"]) "path" [], .path ["symbol", "KEY"]]) (.seq (.path ["continue"]) .unit) .unit)
    (.letIn (.bind "result") (.method (.path ["attr"]) "parse_nested_meta" [.lambda [.bind "input"] closureBody])
      (.cases (.path ["result"]) [(.con ["Err"] [.bind "error"], .seq (.method (.path ["cx"]) "error" [.path ["error"]]) .unit), (.wild, .unit)]))

theorem closure_run (E : Emit.Macro.Env) (n : Nat) (l : List Attr) (a : Attr) (p : Path) (b : Bool) (e : List String) :
    returned (inner l a b e).vars.length (run E Progs.symbol (n + 10) closureBody ((inner l a b e).set "input" (.input p))) =
      if p.isIdent "bitset" then some (inner l a true e, none) else some (inner l a b e, some "Unsupported attribute") := by
  have hc : run E Progs.symbol (n + 8) (.call ["=="] [.field (.path ["input"]) "path", .path ["symbol", "BITSET"]]) ((inner l a b e).set "input" (.input p)) =
      .val (.bool (p.isIdent "bitset")) ((inner l a b e).set "input" (.input p)) := by derive_rfl
  unfold closureBody
  rw [run_seq, run_ite, hc]
  cases p.isIdent "bitset" <;> drfl

/-- One turn of the loop. -/
theorem each_step (E : Emit.Macro.Env) (n : Nat) (l : List Attr) (a : Attr) (as : List Attr) (b : Bool) (e : List String) (st : Emit.Macro.State)
    (hst : Emit.Macro.parse E [a] ⟨b, e⟩ = st) :
    each (fun a s => run E Progs.symbol (n + 14) loopBody (s.set "attr" (.attr a))) 2 (a :: as) (outer l b e) =
      each (fun a s => run E Progs.symbol (n + 14) loopBody (s.set "attr" (.attr a))) 2 as (outer l st.bitset st.errors) := by
  have hs : (outer l b e).set "attr" (.attr a) = inner l a b e := by derive_rfl
  have hc : run E Progs.symbol (n + 12) (.call ["!="] [.method (.path ["attr"]) "path" [], .path ["symbol", "KEY"]]) (inner l a b e) =
      .val (.bool (!a.path.isIdent "key")) (inner l a b e) := by derive_rfl
  have ha : run E Progs.symbol (n + 11) (.path ["attr"]) (inner l a b e) = .val (.attr a) (inner l a b e) := by derive_rfl
  rw [each]
  simp only [hs]
  subst hst
  simp only [Emit.Macro.parse]
  unfold loopBody
  rw [run_seq, run_ite, hc]
  cases hk : a.path.isIdent "key" with
  | false => drfl
  | true =>
    simp only [Flow.bind, Bool.not_true]
    have hu : run E Progs.symbol (n + 12) .unit (inner l a b e) = .val .unit (inner l a b e) := by derive_rfl
    rw [hu]
    simp only [run_let]
    rw [run_nested, ha]
    simp only [Flow.bind]
    rw [parseWith_eq E _ (inner l a) (fun p b e => closure_run E (n + 1) l a p b e)]
    generalize Emit.Macro.parseNestedMeta E a.args ⟨b, e⟩ = r
    rcases r with ⟨⟨b', e'⟩, _ | m⟩
    · drfl
    · drfl

theorem each_run (E : Emit.Macro.Env) (n : Nat) (l : List Attr) : ∀ (as : List Attr) (b : Bool) (e : List String),
    each (fun a s => run E Progs.symbol (n + 14) loopBody (s.set "attr" (.attr a))) 2 as (outer l b e) =
      .val .unit (outer l (Emit.Macro.parse E as ⟨b, e⟩).bitset (Emit.Macro.parse E as ⟨b, e⟩).errors) := by
  intro as
  induction as with
  | nil => intro b e; rfl
  | cons a as ih =>
    intro b e
    rw [each_step E n l a as b e _ rfl, ih]
    have : Emit.Macro.parse E as ⟨(Emit.Macro.parse E [a] ⟨b, e⟩).bitset, (Emit.Macro.parse E [a] ⟨b, e⟩).errors⟩ = Emit.Macro.parse E (a :: as) ⟨b, e⟩ := by
      simp only [Emit.Macro.parse]
      split <;> rfl
    rw [this]

theorem attrs_run (E : Emit.Macro.Env) (n : Nat) (l : List Attr) (e : List String) :
    call E Progs.symbol Progs.attrs (n + 20) "parse" [.cx l] e =
      .val (.ok (.opts (Emit.Macro.parse E l ⟨false, e⟩).bitset)) (outer l (Emit.Macro.parse E l ⟨false, e⟩).bitset (Emit.Macro.parse E l ⟨false, e⟩).errors) := by
  have h : call E Progs.symbol Progs.attrs (n + 20) "parse" [.cx l] e =
      match (each (fun a s => run E Progs.symbol (n + 3 + 14) loopBody (s.set "attr" (.attr a))) 2 l (outer l false e)).bind
        (fun _ s => run E Progs.symbol (n + 18) (.call ["Ok"] [.path ["opts"]]) s) with
      | .ret v s => .val v s
      | .cont _ => .wrong
      | r => r := by derive_rfl
  rw [h, each_run]
  drfl

/-! ## Paths -/

def pathBody : Ex :=
  .letIn (.bind "segment") (.call ["syn", "PathSegment", "from"] [.call ["syn", "Ident", "new"] [.path ["part"], .call ["Span", "call_site"] []]])
    (.seq (.method (.field (.path ["path"]) "segments") "push" [.path ["segment"]]) .unit)

theorem each_path (E : Emit.Macro.Env) (n : Nat) (w : AVal) : ∀ (l : List String) (b : Bool) (m : List String),
    each (fun t s => run E Progs.symbol (n + 10) pathBody (s.set "part" (.str t))) 2 l ⟨[("parts", w), ("path", .path ⟨b, m⟩)], []⟩ =
      .val .unit ⟨[("parts", w), ("path", .path ⟨b, m ++ l⟩)], []⟩ := by
  intro l
  induction l with
  | nil => intro b m; rw [List.append_nil]; rfl
  | cons t l ih =>
    intro b m
    have h : each (fun t s => run E Progs.symbol (n + 10) pathBody (s.set "part" (.str t))) 2 (t :: l) ⟨[("parts", w), ("path", .path ⟨b, m⟩)], []⟩ =
        each (fun t s => run E Progs.symbol (n + 10) pathBody (s.set "part" (.str t))) 2 l ⟨[("parts", w), ("path", .path ⟨b, m ++ [t]⟩)], []⟩ := by derive_rfl
    rw [h, ih, List.append_assoc]
    rfl

theorem each_suffix (E : Emit.Macro.Env) (n : Nat) (v w : AVal) : ∀ (l : List String) (b : Bool) (m : List String),
    each (fun t s => run E Progs.symbol (n + 10) pathBody (s.set "part" (.str t))) 3 l ⟨[("prefix", v), ("parts", w), ("path", .path ⟨b, m⟩)], []⟩ =
      .val .unit ⟨[("prefix", v), ("parts", w), ("path", .path ⟨b, m ++ l⟩)], []⟩ := by
  intro l
  induction l with
  | nil => intro b m; rw [List.append_nil]; rfl
  | cons t l ih =>
    intro b m
    have h : each (fun t s => run E Progs.symbol (n + 10) pathBody (s.set "part" (.str t))) 3 (t :: l) ⟨[("prefix", v), ("parts", w), ("path", .path ⟨b, m⟩)], []⟩ =
        each (fun t s => run E Progs.symbol (n + 10) pathBody (s.set "part" (.str t))) 3 l ⟨[("prefix", v), ("parts", w), ("path", .path ⟨b, m ++ [t]⟩)], []⟩ := by derive_rfl
    rw [h, ih, List.append_assoc]
    rfl

theorem leading_run (E : Emit.Macro.Env) (n : Nat) (l : List String) :
    call E Progs.symbol Progs.pathFns (n + 20) "leading_path" [.parts l] [] = .val (.path ⟨true, l⟩) ⟨[("parts", .parts l), ("path", .path ⟨true, l⟩)], []⟩ := by
  have h : call E Progs.symbol Progs.pathFns (n + 20) "leading_path" [.parts l] [] =
      match (each (fun t s => run E Progs.symbol (n + 7 + 10) pathBody (s.set "part" (.str t))) 2 l ⟨[("parts", .parts l), ("path", .path ⟨true, []⟩)], []⟩).bind
        (fun _ s => run E Progs.symbol (n + 18) (.path ["path"]) s) with
      | .ret v s => .val v s
      | .cont _ => .wrong
      | r => r := by derive_rfl
  rw [h, each_path]
  drfl

theorem suffixed_run (E : Emit.Macro.Env) (n : Nat) (p : Path) (l : List String) :
    call E Progs.symbol Progs.pathFns (n + 20) "suffixed" [.path p, .parts l] [] =
      .val (.path ⟨p.leading, p.segments ++ l⟩) ⟨[("prefix", .path p), ("parts", .parts l), ("path", .path ⟨p.leading, p.segments ++ l⟩)], []⟩ := by
  have h : call E Progs.symbol Progs.pathFns (n + 20) "suffixed" [.path p, .parts l] [] =
      match (each (fun t s => run E Progs.symbol (n + 7 + 10) pathBody (s.set "part" (.str t))) 3 l
          ⟨[("prefix", .path p), ("parts", .parts l), ("path", .path ⟨p.leading, p.segments⟩)], []⟩).bind
        (fun _ s => run E Progs.symbol (n + 18) (.path ["path"]) s) with
      | .ret v s => .val v s
      | .cont _ => .wrong
      | r => r := by derive_rfl
  rw [h, each_suffix]
  drfl

end FixedMap.DeriveText.Attrs
