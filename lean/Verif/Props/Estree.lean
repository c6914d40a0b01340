import Verif.Props.AstGen
import Verif.Props.Utf8
import Verif.Props.RoundTrip
/-! C50: the serialisation of accepted modules is memory safe, and exactly when it succeeds. -/
namespace Ratel
open Spec

section
variable [Unicode]
set_option linter.unusedSectionVars false

/-- Literals of accepted modules have their delimiters. -/
theorem accepted_delimited {fuel : Nat} {src : Bytes} {m : List Stmt} (h : parse fuel src = .ok (.ok m)) {n : Node}
    (hn : n ∈ moduleNodes m) : n.delimited := by
  have hw := accepted_wellFormed h n hn
  unfold Node.delimited
  split
  · rename_i l v
    cases v <;> try trivial
    · obtain ⟨x, ds, rfl, -⟩ := hw
      simp [literalDelimited]
    · obtain ⟨q, s, rfl, -⟩ := hw
      simp [literalDelimited]
  · trivial

/-- In accepted modules the serialisable nodes are those without one of the four unsupported forms. -/
theorem accepted_serialisable {fuel : Nat} {src : Bytes} {m : List Stmt} (h : parse fuel src = .ok (.ok m)) {n : Node}
    (hn : n ∈ moduleNodes m) : n.serialisable ↔ n.exportable := by
  have hw := accepted_wellFormed h n hn
  have hp := C13_no_placeholders h hn
  have hq := (C14_verbatim h hn).2.1
  have hole : n.isJsonArray = true ∨ ∀ c ∈ n.children, c.isJsonHole = false := by
    by_cases ha : n.isArray = true
    · unfold Node.isArray at ha
      split at ha
      · exact .inl rfl
      · right
        intro c hc
        simp only [Node.children, List.mem_map] at hc
        obtain ⟨p, -, rfl⟩ := hc
        rfl
      · simp at ha
    · right
      intro c hc
      have := hp.2.2 (by simpa using ha) c hc
      unfold Node.isHole at this
      unfold Node.isJsonHole
      split at this <;> simp_all
  have qs : ∀ q ∈ n.quasis, q.loc.stop ≠ 0 := by
    intro q hqm
    obtain ⟨d, e, h1, h2, -⟩ := hq q hqm
    intro h0
    rw [h0] at h1
    have : (slice src q.loc.start 0).length = 0 := by simp [slice]
    rw [h1] at this
    rcases h2 with rfl | rfl <;> simp at this
  unfold Node.serialisable
  simp only [hole, and_true]
  unfold Node.supported Node.exportable
  split
  · rename_i l v
    cases v
    case String v =>
      obtain ⟨q, s, rfl, -⟩ := hw
      simp [literalFits]
    case RegEx v =>
      obtain ⟨c, p, f, rfl, -⟩ := hw
      simp [literalFits]
    all_goals simp [literalFits]
  all_goals first
    | (simp; done)
    | skip
  · simpa [Node.quasis] using qs
  · simpa [Node.quasis] using qs
  · exact absurd hp.1 (by simp [Node.isErrorMember])
  · split
    all_goals first
      | (rename_i hx; exact absurd rfl (hx _ _ _ _))
      | simp_all

/-- C50: the serialisation of an accepted module is memory safe: the unchecked slices are in range. It ends with a
value or a panic. -/
theorem C50_memory_safe {fuel : Nat} {src : Bytes} {m : List Stmt} (h : parse fuel src = .ok (.ok m)) :
    genModule m = .panic ∨ ∃ j, genModule m = .ok j ∧ Estree j := by
  have hv := genModule_verdict m fun n hn => accepted_delimited h hn
  by_cases hs : ∀ n ∈ moduleNodes m, n.serialisable
  · exact .inr (hv.1 hs)
  · exact .inl (hv.2 hs)

/-- C50: an accepted module is serialised exactly if it has none of the four unsupported forms. -/
theorem C50_succeeds_iff {fuel : Nat} {src : Bytes} {m : List Stmt} (h : parse fuel src = .ok (.ok m)) :
    (∃ j, genModule m = .ok j) ↔ ∀ n ∈ moduleNodes m, n.exportable := by
  have hv := genModule_verdict m fun n hn => accepted_delimited h hn
  have he : (∀ n ∈ moduleNodes m, n.serialisable) ↔ ∀ n ∈ moduleNodes m, n.exportable :=
    ⟨fun a n hn => (accepted_serialisable h hn).1 (a n hn), fun a n hn => (accepted_serialisable h hn).2 (a n hn)⟩
  rw [← he]
  constructor
  · rintro ⟨j, hj⟩
    apply Classical.byContradiction
    intro hn
    rw [hv.2 hn] at hj
    simp at hj
  · intro hs
    obtain ⟨j, hj, -⟩ := hv.1 hs
    exact ⟨j, hj⟩

/-- C50: otherwise it panics. -/
theorem C50_panics_iff {fuel : Nat} {src : Bytes} {m : List Stmt} (h : parse fuel src = .ok (.ok m)) :
    genModule m = .panic ↔ ∃ n ∈ moduleNodes m, ¬n.exportable := by
  have h1 := C50_succeeds_iff h
  constructor
  · intro hp
    apply Classical.byContradiction
    intro hn
    obtain ⟨j, hj⟩ := h1.2 fun n hm => Classical.byContradiction fun hx => hn ⟨n, hm, hx⟩
    rw [hp] at hj
    simp at hj
  · rintro ⟨n, hn, hx⟩
    rcases C50_memory_safe h with hp | ⟨j, hj, -⟩
    · exact hp
    · exact absurd (h1.1 ⟨j, hj⟩ n hn) hx

/-- C50: the slices that are taken of literals are cut between characters: the texts written for strings and regular
expressions are valid UTF-8 (what is cut off are quotes and slashes). -/
theorem C50_slices {fuel : Nat} {src : Bytes} {m : List Stmt} (hu : Utf8 src) (h : parse fuel src = .ok (.ok m))
    {l : Loc} {v : Bytes} :
    (.expr (.lit l (.String v)) ∈ moduleNodes m → Utf8 ((v.drop 1).dropLast)) ∧
    (.expr (.lit l (.RegEx v)) ∈ moduleNodes m →
      ∃ p f, parseRegex v = .ok (p, f) ∧ v = #b'/' :: p ++ #b'/' :: f ∧ Utf8 p ∧ Utf8 f ∧ ∀ b ∈ f, isFlag b = true) := by
  constructor
  · intro hn
    have ht := C46_texts hu h hn v (by simp [Node.texts])
    obtain ⟨q, s, rfl, hq, -⟩ := accepted_wellFormed h _ hn
    have hq : ∀ b ∈ [q], b < 128 := by
      intro b hb
      simp only [List.mem_singleton] at hb
      subst hb
      rcases hq with rfl | rfl <;> decide
    simpa using Utf8.strip_right (Utf8.strip_left (a := [q]) (s := s ++ [q]) (by simpa using ht) hq) hq
  · intro hn
    have ht := C46_texts hu h hn v (by simp [Node.texts])
    obtain ⟨c, p, f, rfl, -, -, hf⟩ := accepted_wellFormed h _ hn
    have hns : #b'/' ∉ f := fun hb => absurd (hf _ hb) (by decide)
    refine ⟨c :: p, f, ?_, by simp, ?_⟩
    · unfold parseRegex
      have hs := lastSlash_spec (#b'/' :: c :: p ++ #b'/' :: f).reverse
      simp only [List.cons_append] at hs ⊢
      cases hl : lastSlash (#b'/' :: c :: (p ++ #b'/' :: f)).reverse with
      | none => exact absurd (hs.1.1 hl) (by simp)
      | some xy =>
        obtain ⟨x, y⟩ := xy
        obtain ⟨h1, h2⟩ := hs.2 x y hl
        have h3 : f.reverse ++ #b'/' :: (#b'/' :: c :: p).reverse = x ++ #b'/' :: y := by
          rw [← h1]; simp
        have h4 : f.reverse = x ∧ (#b'/' :: c :: p).reverse = y := by
          have hns' : #b'/' ∉ f.reverse := by simpa using hns
          generalize f.reverse = a at h3 hns'
          generalize (#b'/' :: c :: p).reverse = b at h3
          clear hl h1 hs ht hf hn hns
          induction a generalizing x with
          | nil =>
            cases x with
            | nil => simpa using h3
            | cons d x => simp at h3; simp [h3.1] at h2
          | cons d a ih =>
            cases x with
            | nil => simp at h3; simp [h3.1] at hns'
            | cons d' x =>
              simp at h3 h2 hns'
              obtain ⟨rfl, h3⟩ := h3
              have := ih (x := x) (by simpa using h2.2) (by simpa using hns'.2) h3
              simp [this]
        obtain ⟨rfl, rfl⟩ := h4
        simp
    · have hsl : ∀ b ∈ [#b'/'], b < 128 := by decide
      have h1 : Utf8 ((c :: p) ++ #b'/' :: f) := Utf8.strip_left (a := [#b'/']) (by simpa using ht) hsl
      have hfa : ∀ b ∈ f, b < 128 := fun b hb => by
        have := hf b hb
        revert this
        exact byte_forall (P := fun b => isFlag b = true → b < 128) (by decide +kernel) b
      exact ⟨Utf8.strip_right h1 (by intro b hb; simp at hb; rcases hb with rfl | hb; decide; exact hfa b hb), .ascii hfa, hf⟩

end

/-! ### The hypotheses are met -/

section
local instance uniEstree : Unicode := ⟨fun _ => true⟩

/-- `[1,,/x[/]y/g].b("é")` is accepted and serialised. -/
example : (match parse 60 (utf8 "[1,,/x[/]y/g].b(\"é\")".toList) with
    | .ok (.ok m) => (match genModule m with | .ok _ => true | _ => false)
    | _ => false) = true := by decide +kernel

/-- `new X` is accepted and not serialised. -/
example : (match parse 60 bs!"new X" with
    | .ok (.ok m) => (match genModule m with | .panic => true | _ => false)
    | _ => false) = true := by decide +kernel

end
end Ratel
