import Verif.Lemmas.LocalRun
import Verif.Props.ParserExamples
/-! Parsing is local: C53, C54. What `parse` reports about the beginning of a source does not depend on the rest of
the source. -/
namespace Ratel
open Spec

set_option linter.unusedSectionVars false
section
variable [Unicode]

/-- The first token, or the lexer comes close to the end of the common part. -/
theorem new_local (p : Bytes) : Lex.Split Lex.consume (Lex.init p) :=
  Lex.local_consume.split _ (by simp [Lex.Fits, Lex.init])

theorem runParser_split {fuel : Nat} {p x : Bytes} {b : List Stmt} {t : PState} (h : runParser fuel (p ++ x) = .ok (b, t)) :
    ∃ l, (Lex.init p |>.ext x).consume = .ok l ∧ program fuel (procs fuel) ⟨l, []⟩ = .ok (b, t) := by
  unfold runParser at h
  cases hn : Lex.new (p ++ x) <;> simp only [hn, Out.bind] at h
  all_goals try cases h
  exact ⟨_, hn, h⟩

/-- The errors of a run depend on what follows the common part only close to its end. -/
theorem runParser_errors {fuel : Nat} (p : Bytes) : ∃ E : List Err, ∀ x b t, runParser fuel (p ++ x) = .ok (b, t) →
    ∃ F, t.errors = E ++ F ∧ ∀ e ∈ F, p.length < e.stop + 4 := by
  rcases new_local p with ⟨l, h1, h2, h3⟩ | h
  · have h2 : l.src = p := h2
    rcases (Known.is : IsProg p _ (program fuel (procs fuel))).local (s := ⟨l, []⟩) h1 with ⟨a, t, h4, h5, h6⟩ | ⟨E, h4⟩
    · refine ⟨t.errors, fun x b t' hr => ⟨[], ?_, by simp⟩⟩
      obtain ⟨l', hl, hr⟩ := runParser_split hr
      rw [h3] at hl
      cases hl
      have := h6 x
      simp only [PState.ext] at this
      rw [hr] at this
      cases this
      simp
    · refine ⟨E, fun x b t' hr => ?_⟩
      obtain ⟨l', hl, hr⟩ := runParser_split hr
      rw [h3] at hl
      cases hl
      obtain ⟨h5, -⟩ := h4 x b t' hr
      simpa [h2] using h5
  · refine ⟨[], fun x b t hr => ?_⟩
    obtain ⟨l, hl, hr⟩ := runParser_split hr
    have h5 := h x l hl
    have h6 := ((Known.is : IsProg p _ (program fuel (procs fuel))).steps hr).onward
    obtain ⟨F, h7, h8⟩ := h6.errors
    refine ⟨F, h7, fun e he => ?_⟩
    have : l.index ≤ e.stop := h8 e he
    have : p.length < l.index + 4 := h5
    omega

/-- The errors in a result of `parse`. -/
def reported : Except (List Err) (List Stmt) → List Err
  | .ok _ => []
  | .error es => es

theorem parse_reported {fuel : Nat} {src : Bytes} {r : Except (List Err) (List Stmt)} (h : parse fuel src = .ok r) :
    ∃ b t, runParser fuel src = .ok (b, t) ∧ reported r = t.errors := by
  unfold parse at h
  cases hr : runParser fuel src <;> simp only [hr, Out.bind] at h
  all_goals try cases h
  rename_i x
  obtain ⟨b, t⟩ := x
  refine ⟨b, t, rfl, ?_⟩
  by_cases he : t.errors.length = 0
  · simp [reported, List.eq_nil_of_length_eq_zero he]
  · simp [he, reported]

/-- Both runs with the same fuel. -/
theorem parse_both {f f' : Nat} {a b : Bytes} {r r' : Except (List Err) (List Stmt)} (h : parse f a = .ok r)
    (h' : parse f' b = .ok r') : ∃ n, parse n a = .ok r ∧ parse n b = .ok r' :=
  ⟨max f f', by rw [parse_fuel (Nat.le_max_left ..) a (by rw [h]; nofun), h],
    by rw [parse_fuel (Nat.le_max_right ..) b (by rw [h']; nofun), h']⟩

/-- C53: two sources with the same beginning `p` have the same errors in it, in the same order: all errors that end
at least four bytes in front of the first difference. -/
theorem C53_errors_local {f f' : Nat} {p x y : Bytes} {r r' : Except (List Err) (List Stmt)}
    (h : parse f (p ++ x) = .ok r) (h' : parse f' (p ++ y) = .ok r') :
    (reported r).filter (fun e => e.stop + 4 ≤ p.length) = (reported r').filter (fun e => e.stop + 4 ≤ p.length) := by
  obtain ⟨n, h, h'⟩ := parse_both h h'
  obtain ⟨b, t, h1, h2⟩ := parse_reported h
  obtain ⟨b', t', h3, h4⟩ := parse_reported h'
  obtain ⟨E, hE⟩ := runParser_errors (fuel := n) p
  obtain ⟨F, h5, h6⟩ := hE x b t h1
  obtain ⟨F', h7, h8⟩ := hE y b' t' h3
  have key : ∀ F : List Err, (∀ e ∈ F, p.length < e.stop + 4) → F.filter (fun e => e.stop + 4 ≤ p.length) = [] := by
    intro F hF
    rw [List.filter_eq_nil_iff]
    intro e he
    have := hF e he
    simp; omega
  rw [h2, h4, h5, h7, List.filter_append, List.filter_append, key F h6, key F' h8]

/-- C53: an error is final. If the source `p ++ x` has an error that ends four bytes in front of the end of `p`, then
no source that starts with `p` is accepted: each has this error too. -/
theorem C53_error_final {f f' : Nat} {p x y : Bytes} {es : List Err} {e : Err} {r' : Except (List Err) (List Stmt)}
    (h : parse f (p ++ x) = .ok (.error es)) (he : e ∈ es) (hp : e.stop + 4 ≤ p.length) (h' : parse f' (p ++ y) = .ok r') :
    ∃ es', r' = .error es' ∧ e ∈ es' := by
  have h1 := C53_errors_local h h'
  have h2 : e ∈ (reported r').filter (fun e => e.stop + 4 ≤ p.length) := by
    rw [← h1, List.mem_filter]
    exact ⟨he, by simpa using hp⟩
  have h3 := (List.mem_filter.1 h2).1
  cases r' with
  | ok _ => simp [reported] at h3
  | error es' => exact ⟨es', rfl, h3⟩

/-- One round of the loop of `program`. -/
def topBody (R : Rec) (acc : List Stmt) : P (Step (List Stmt) (List Stmt)) := do
  if (← tok) = .EndOfProgram then pure (.done acc)
  else
    let s ← R.stmt
    pure (.again (acc ++ [s]))

theorem program_loop (n : Nat) (R : Rec) (s : PState) : program n R s = loop (n + 1) (topBody R) [] s := by
  unfold program
  rw [loop, P.bind_run, P.bind_run]
  unfold topBody
  rw [P.bind_run]
  simp only [tok, Out.bind]
  by_cases h : s.lex.token = .EndOfProgram
  · simp only [if_pos h]; rfl
  · simp only [if_neg h, P.bind_run]
    cases hs : R.stmt s <;> rfl

/-- What a round of the loop does. -/
theorem topBody_ok {R : Rec} {n : Nat} {acc : List Stmt} {s : PState} :
    loop (n + 1) (topBody R) acc s = if s.lex.token = .EndOfProgram then .ok (acc, s) else
      (R.stmt s).bind fun x => loop n (topBody R) (acc ++ [x.1]) x.2 := by
  rw [loop, P.bind_run]
  unfold topBody
  rw [P.bind_run]
  simp only [tok, Out.bind]
  by_cases h : s.lex.token = .EndOfProgram
  · simp only [if_pos h]; rfl
  · simp only [if_neg h, P.bind_run]
    cases hs : R.stmt s <;> rfl

/-- The statements read from here on end behind the current token. -/
theorem tail_behind {src : Bytes} {n k : Nat} {acc : List Stmt} {l : Lex} (hl : At src l) :
    W (loop k (topBody (procs n)) acc) l fun A _ => ∃ B, A = acc ++ B ∧ ∀ t ∈ B, l.index ≤ t.loc.stop := by
  refine W.loop (src := src) (fun a m => At src m ∧ l.index ≤ m.index ∧ ∃ B, a = acc ++ B ∧ ∀ t ∈ B, l.index ≤ t.loc.stop)
    (fun a m hm => ?_) (fun a => by unfold topBody; mono) ⟨hl, Nat.le_refl _, [], by simp, by simp⟩
  obtain ⟨h1, h2, B, rfl, h3⟩ := hm
  unfold topBody
  walk
  · exact ⟨B, rfl, h3⟩
  · rename_i h4 h5 h6
    refine ⟨h4, Nat.le_trans h2 h5.2, B ++ [a], by simp, fun t ht => ?_⟩
    rcases List.mem_append.1 ht with ht | ht
    · exact h3 t ht
    · simp at ht
      subst ht
      exact Nat.le_trans h2 h6.first

theorem loop_acc {R : Rec} : ∀ {k : Nat} {acc A : List Stmt} {s t : PState}, loop k (topBody R) acc s = .ok (A, t) →
    ∃ B, A = acc ++ B
  | 0, _, _, _, _, h => by cases h
  | k + 1, acc, A, s, t, h => by
    rw [topBody_ok] at h
    split at h
    · cases h; exact ⟨[], by simp⟩
    · obtain ⟨⟨a, u⟩, -, h2⟩ := Out.bind_eq_ok.1 h
      obtain ⟨B, rfl⟩ := loop_acc h2
      exact ⟨a :: B, by simp⟩

instance {src : Bytes} {R : Rec} [Rec.Known src R] {acc : List Stmt} : Known src (topBody R acc) := ⟨by unfold topBody; prog⟩

theorem loop_errors {n : Nat} : ∀ {k : Nat} {acc A : List Stmt} {s t : PState},
    loop k (topBody (procs n)) acc s = .ok (A, t) → s.errors <+: t.errors := fun {k acc _ _ _} h =>
  (Mono.loop (src := []) (body := topBody (procs n)) (fun _ => .known) k acc).errors _ _ _ h

theorem lockstep {n : Nat} {p x y : Bytes} {A B : List Stmt} {tx ty : PState} (hx : tx.errors = []) :
    ∀ {k : Nat} {acc : List Stmt} {s : PState}, s.lex.src = p → s.lex.Fits → At (p ++ x) (s.lex.ext x) →
    loop k (topBody (procs n)) acc (s.ext x) = .ok (A, tx) → loop k (topBody (procs n)) acc (s.ext y) = .ok (B, ty) →
    ∃ A' B', A = acc ++ A' ∧ B = acc ++ B' ∧
      ∀ A1 t A2, A' = A1 ++ t :: A2 → t.loc.stop + 4 ≤ p.length → ∃ B2, B' = A1 ++ B2
  | 0, _, _, _, _, _, h, _ => by cases h
  | k + 1, acc, s, hp, hf, ha, h, h' => by
    have he : s.errors = [] := by
      have := loop_errors h
      rw [hx] at this
      exact List.prefix_nil.1 this
    rw [topBody_ok] at h h'
    by_cases ht : s.lex.token = .EndOfProgram
    · rw [if_pos (show (s.ext x).lex.token = _ from ht)] at h
      rw [if_pos (show (s.ext y).lex.token = _ from ht)] at h'
      cases h; cases h'
      exact ⟨[], [], by simp, by simp, by simp⟩
    · rw [if_neg (show (s.ext x).lex.token ≠ _ from ht)] at h
      rw [if_neg (show (s.ext y).lex.token ≠ _ from ht)] at h'
      obtain ⟨⟨a, u⟩, h1, h2⟩ := Out.bind_eq_ok.1 h
      obtain ⟨⟨b, v⟩, h3, h4⟩ := Out.bind_eq_ok.1 h'
      have hu : At (p ++ x) u.lex :=
        ((Known.is : IsProg (p ++ x) _ (procs n).stmt).proper (s := s.ext x) ha.proper trivial h1).at
      rcases (Known.is : IsProg p _ (procs n).stmt).local hf with ⟨c, w, h5, h6, h7⟩ | ⟨E, h5⟩
      · rw [h7 x] at h1
        rw [h7 y] at h3
        cases h1; cases h3
        obtain ⟨A', B', rfl, rfl, h8⟩ := lockstep hx (h6.trans hp) h5 hu h2 h4
        refine ⟨a :: A', a :: B', by simp, by simp, fun A1 t A2 hA hs => ?_⟩
        cases A1 with
        | nil => exact ⟨_, rfl⟩
        | cons d A1 =>
          simp at hA
          obtain ⟨rfl, hA⟩ := hA
          obtain ⟨B2, rfl⟩ := h8 A1 t A2 hA hs
          exact ⟨B2, rfl⟩
      · have h6 := (h5 x a u h1).2
        have hue : u.errors = [] := by
          have := loop_errors h2
          rw [hx] at this
          exact List.prefix_nil.1 this
        obtain ⟨B', hB⟩ := loop_acc h4
        obtain ⟨ul, ue⟩ := u
        obtain ⟨tl, te⟩ := tx
        cases hue; cases hx
        obtain ⟨A', hA', h9⟩ := tail_behind hu _ _ h2
        refine ⟨a :: A', b :: B', by simpa using hA', by simpa using hB, fun A1 t A2 hA hs => ?_⟩
        cases A1 with
        | nil => exact ⟨_, rfl⟩
        | cons d A1 =>
          simp at hA
          have := h9 t (by rw [hA.2]; simp)
          simp only [hp] at h6
          simp only at h6 this
          omega

/-- C54: two accepted sources with the same beginning `p` have the same statements in it: all statements up to, but
not including, any statement that ends at least four bytes in front of the first difference. -/
theorem C54_statements_local {f f' : Nat} {p x y : Bytes} {A B A1 A2 : List Stmt} {t : Stmt}
    (h : parse f (p ++ x) = .ok (.ok A)) (h' : parse f' (p ++ y) = .ok (.ok B))
    (hA : A = A1 ++ t :: A2) (ht : t.loc.stop + 4 ≤ p.length) : ∃ B2, B = A1 ++ B2 := by
  obtain ⟨n, h, h'⟩ := parse_both h h'
  obtain ⟨s, h1, h2⟩ := (C11_ok_iff_no_error n _ _).1 h
  obtain ⟨s', h3, h4⟩ := (C11_ok_iff_no_error n _ _).1 h'
  obtain ⟨l, h5, h6⟩ := runParser_split h1
  obtain ⟨l', h7, h8⟩ := runParser_split h3
  have ha : At (p ++ x) l := (Proper.new (src := p ++ x) h5).at
  rw [program_loop] at h6 h8
  rcases new_local p with ⟨a, g1, g2, g3⟩ | g
  · rw [g3] at h5 h7
    cases h5; cases h7
    obtain ⟨A', B', e1, e2, e3⟩ := lockstep (s := ⟨a, []⟩) (x := x) (y := y) (p := p) h2 g2 g1 ha h6 h8
    obtain ⟨B2, e4⟩ := e3 A1 t A2 (by rw [← hA, e1]; rfl) ht
    exact ⟨B2, by rw [e2, e4]; rfl⟩
  · have g4 : p.length < l.index + 4 := g x l h5
    obtain ⟨sl, se⟩ := s
    cases h2
    obtain ⟨A', e1, e2⟩ := tail_behind ha _ _ h6
    have := e2 t (by rw [← List.nil_append A', ← e1, hA]; simp)
    omega

end

/-! ### Concrete cases -/

local instance localUnicode : Unicode := ⟨fun _ => true⟩

/-- C53: no source that starts with `foo bar ; baz` is accepted. -/
example (f : Nat) (y : Bytes) (r : Except (List Err) (List Stmt)) (h : parse f (bs!"foo bar ; baz" ++ y) = .ok r) :
    ∃ es, r = .error es ∧ ⟨.Identifier, 4, 7, bs!"bar"⟩ ∈ es :=
  C53_error_final (p := bs!"foo bar ; baz") (x := []) (f := 30) (es := [⟨.Identifier, 4, 7, bs!"bar"⟩])
    (of_errorsOf (by decide +kernel)) (by simp) (by decide +kernel) h

/-- Some distance is needed: the error `b` at the end of `a b` is not an error of `a bc`. -/
example : errorsOf (parse 20 (bs!"a b" ++ bs!";")) = some [⟨.Identifier, 2, 3, bs!"b"⟩] ∧
    errorsOf (parse 20 (bs!"a b" ++ bs!"c")) = some [⟨.Identifier, 2, 4, bs!"bc"⟩] := by
  constructor <;> decide +kernel

/-- Where the statements of an accepted source are. -/
def stmtSpans (r : Out (Except (List Err) (List Stmt))) : Option (List Loc) :=
  match r with
  | .ok (.ok m) => some (m.map Stmt.loc)
  | _ => none

theorem of_stmtSpans {r : Out (Except (List Err) (List Stmt))} {ls : List Loc} (h : stmtSpans r = some ls) :
    ∃ m, r = .ok (.ok m) ∧ m.map Stmt.loc = ls := by
  unfold stmtSpans at h
  split at h
  · exact ⟨_, rfl, by simpa using h⟩
  · simp at h

/-- C54: the statements `a;` and `b;` of `a; b; c;     ` and of every accepted source that starts so. -/
example (f : Nat) (y : Bytes) (B : List Stmt) (h : parse f (bs!"a; b; c;    " ++ y) = .ok (.ok B)) :
    ∃ A1 A2 : List Stmt, parse 30 bs!"a; b; c;    " = .ok (.ok (A1 ++ A2)) ∧ A1.map Stmt.loc = [⟨0, 1⟩, ⟨3, 4⟩] ∧ ∃ B2, B = A1 ++ B2 := by
  have hs : stmtSpans (parse 30 bs!"a; b; c;    ") = some [⟨0, 1⟩, ⟨3, 4⟩, ⟨6, 7⟩] := by decide +kernel
  obtain ⟨m, hm, hs⟩ := of_stmtSpans hs
  have hs' : ∃ a b c : Stmt, m = [a, b, c] ∧ a.loc = ⟨0, 1⟩ ∧ b.loc = ⟨3, 4⟩ ∧ c.loc = ⟨6, 7⟩ := by
    clear hm
    rcases m with _ | ⟨a, _ | ⟨b, _ | ⟨c, _ | ⟨d, m⟩⟩⟩⟩ <;> simp at hs
    exact ⟨a, b, c, rfl, hs⟩
  obtain ⟨a, b, c, rfl, h1, h2, h3⟩ := hs'
  exact ⟨[a, b], [c], hm, by simp [h1, h2],
    C54_statements_local (p := bs!"a; b; c;    ") (x := []) (f := 30) (by rw [List.append_nil]; exact hm) h
      (A1 := [a, b]) (t := c) (A2 := []) rfl (by rw [h3]; decide)⟩

/-- The statement itself may go on: behind `a; b /*  */ ` the statement `b` ends where it ends in `a; b /*  */ ;` or
not. -/
example : stmtSpans (parse 20 (bs!"a; b /*  */ " ++ bs!"")) = some [⟨0, 1⟩, ⟨3, 4⟩] ∧
    stmtSpans (parse 20 (bs!"a; b /*  */ " ++ bs!"+ c;")) = some [⟨0, 1⟩, ⟨3, 15⟩] := by
  constructor <;> decide +kernel

end Ratel
