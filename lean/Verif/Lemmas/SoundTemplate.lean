import Verif.Lemmas.SoundClass
/-! Templates, regular expressions and arguments of error-free runs are phrases of the grammar. -/
namespace Ratel
open Spec

set_option linter.unusedSectionVars false
variable [Unicode]

variable {src : Bytes} {n : Nat} {R : Rec} [Rec.Known src R] [hR : Rec.Gs src R]

theorem bareExprs_append (xs ys : List Expr) : bareExprs (xs ++ ys) = bareExprs xs ++ bareExprs ys := by
  induction xs with
  | nil => rfl
  | cons x xs ih => simp [bareExprs, ih]

/-! ### Templates -/

abbrev TemplateGot (l : Lex) (r : Loc × List Expr × List Ident) (l' : Lex) : Prop :=
  Got l (.template (bareExprs r.2.1) (r.2.2.map bareIdent)) l'

theorem templateString_sound {l : Lex} (hl : At src l) (ht : l.token = .TemplateClosed) : W templateString l (TemplateGot l) := by
  unfold templateString
  go
  rename_i hn
  intro j hs
  obtain ⟨i, h1, h2, -⟩ := hs.back hn ht (by simp)
  have : l.text = l.quasi := by simp [Lex.text, ht]
  exact ⟨i, h1, .templateClosed (this ▸ h2)⟩

theorem Str.resume {m0 m m' : Lex} {j : List Item} (h0 : At src m0) (ht : m0.token = .BraceClose) (hr : m0.readTemplateKind = .ok m)
    (c : Bool) (hc : m.token = if c then .TemplateClosed else .TemplateOpen) (hn : Nxt src m m') (h : Str m' j) :
    Str m0 (.resume c m.quasi :: j) :=
  ⟨.resume ht (h0.proper.closing (by rw [ht]; rfl) (by rw [ht]; simp)) hr hc rfl hn.step h.stream, fun x hx => by
    rcases List.mem_cons.1 hx with rfl | hx
    · simp [Item.token]
    · exact h.clean x hx⟩

theorem W.templateRead {β : Type} {f : Unit → P β} {l : Lex} {Q : β → Lex → Prop} (hl : At src l) (ht : l.token = .BraceClose)
    (h : ∀ l', At src l' → l.readTemplateKind = .ok l' → W (f ()) l' Q) (hf : ∀ a, Mono src (f a)) :
    W (readTemplateKind >>= f) l Q := by
  refine .bind (src := src) ?_ hf
  intro a l' hr
  cases hc : l.readTemplateKind <;> simp [Ratel.readTemplateKind, hc, Out.bind] at hr
  subst hr
  exact h _ (hl.proper.template ht hc).at hc

/-- The invariant of the loop over the texts. -/
structure TemplateRun (src : Bytes) (l : Lex) (s : List Expr × List Ident) (m : Lex) : Prop where
  at_ : At src m
  run : ∃ m0, At src m0 ∧ m0.token = .BraceClose ∧ m0.readTemplateKind = .ok m ∧ ∀ j es qs k, Str m0 j → G j (.templateTail es qs) k →
    ∃ i, Str l i ∧ G i (.template (bareExprs s.1 ++ es) (s.2.map bareIdent ++ qs)) k

theorem templateLiteral_sound {l : Lex} (hl : At src l) (ht : l.token = .TemplateOpen) :
    W (templateLiteral n R) l (TemplateGot l) := by
  unfold templateLiteral
  go
  rename_i l1 h1 n1 h2 he hb
  refine W.templateRead (src := src) h2 hb (fun m hm hr => ?_) (fun _ => by mono)
  have hI : TemplateRun src l ([a], [⟨⟨l.tokenStart, l.index⟩, l.quasi⟩]) m := by
    refine ⟨hm, _, h2, hb, hr, fun j es qs k g1 g2 => ?_⟩
    obtain ⟨i1, g3, g4⟩ := he j g1
    obtain ⟨i, g5, g6, -⟩ := g3.back n1 ht (by simp)
    have : l.text = l.quasi := by simp [Lex.text, ht]
    exact ⟨i, g5, .templateOpen (this ▸ g6) g4 g2⟩
  refine W.loop (src := src) (TemplateRun src l) (fun s m hm => ?_) (by mono) hI
  obtain ⟨hm, m0, k1, k2, k3, k4⟩ := hm
  obtain ⟨es, qs⟩ := s
  go
  · rename_i m1 _ n1 m2 he hb
    refine W.templateRead (src := src) m2 hb (fun m3 h3 hr => ?_) (fun _ => by mono)
    refine .pure ⟨h3, _, m2, hb, hr, fun j es' qs' k g1 g2 => ?_⟩
    obtain ⟨i1, g3, g4⟩ := he j g1
    have := k4 _ _ _ _ (Str.resume k1 k2 k3 false (by simpa) n1 g3) (.templateMore g4 g2)
    simpa [bareExprs_append, bareExprs, bareIdent] using this
  · rename_i n1
    intro j hs
    have := k4 _ _ _ _ (Str.resume k1 k2 k3 true (by simpa) n1 hs) .templateEnd
    simpa [bareIdent] using this

/-! ### Regular expressions -/

theorem regularExpression_sound {l : Lex} (hl : At src l) (ht : l.token = .OperatorDivision) :
    W regularExpression l fun e l' => Got l (.expr 17 (bareExpr e)) l' := by
  unfold regularExpression
  go
  refine W.regex (src := src) hl ht (fun v m hm hc h1 h2 => ?_) (fun _ => by mono)
  go
  rename_i hn
  intro j hs
  refine ⟨.regex v l.asi :: j, ⟨.regex ht rfl hc (by assumption) hn.step hs.stream, fun x hx => ?_⟩, .regex (Nat.le_refl _)⟩
  rcases List.mem_cons.1 hx with rfl | hx
  · simp [Item.token]
  · exact hs.clean x hx

/-! ### Arguments -/

abbrev Args (es : List Expr) (i j : List Item) : Prop := G i (.args (bareExprs es)) j

instance : Rs src (callArguments n R) fun l es l' => l'.token = .ParenClose ∧ Got l (.args (bareExprs es)) l' := ⟨fun l hl => by
  unfold callArguments
  refine .tok ?_
  split
  · rename_i ht
    exact .pure ⟨ht, fun j hs => ⟨j, hs, .argsNone (hs.token.symm.trans ht)⟩⟩
  · go
    rename_i hm hx
    refine W.loop (src := src) (fun acc m => At src m ∧ ∀ j xs k, Str m j →
      ((xs = [] ∧ k = j ∧ look j = .ParenClose) ∨ ∃ n, Tk .Comma j n ∧ Args xs n k) → ∃ i, Str l i ∧ Args (acc ++ xs) i k)
      (fun acc m hm => ?_) (by mono) ⟨hm, fun j xs k g1 g2 => ?_⟩
    · obtain ⟨k1, k3⟩ := hm
      refine .tok ?_
      split
      · rename_i ht
        refine .pure ⟨ht, fun j hs => ?_⟩
        have := k3 j [] j hs (.inl ⟨rfl, rfl, hs.token.symm.trans ht⟩)
        simpa using this
      · go
        · rename_i m1 n1 ht'
          refine ⟨ht', fun j hs => ?_⟩
          obtain ⟨i', g5, g6, -⟩ := hs.plain (t := .Comma) n1 (by assumption) rfl
          have := k3 i' [] j g5 (.inr ⟨_, g6.tk, .argsNone (hs.token.symm.trans ht')⟩)
          simpa using this
        · rename_i m2 hx
          refine ⟨by assumption, fun j xs k g1 g2 => ?_⟩
          obtain ⟨i, g3, g4⟩ := hx j g1
          obtain ⟨i', g5, g6, -⟩ := g3.plain (src := src) (l := m) (t := .Comma) (by assumption) (by assumption) rfl
          have := k3 i' (a :: xs) k g5 (.inr ⟨_, g6.tk, by
            rcases g2 with ⟨rfl, rfl, g2⟩ | ⟨o, g7, g8⟩
            · exact .argsLast g4 g2
            · exact .argsMore g4 g7 g8⟩)
          simpa using this
      · go
    · obtain ⟨i, g3, g4⟩ := hx j g1
      refine ⟨i, g3, ?_⟩
      rcases g2 with ⟨rfl, rfl, g2⟩ | ⟨o, g7, g8⟩
      · exact .argsLast g4 g2
      · exact .argsMore g4 g7 g8⟩

end Ratel
