import Verif.Lemmas.FormedRules
/-! The trees of the grammar are well formed: by induction on the derivation. -/
namespace Ratel
open Spec

set_option linter.unusedSectionVars false
section
variable [Unicode]

local macro "kids" : tactic => `(tactic| simp only [Node.children, List.forall_mem_append, List.forall_mem_cons, List.forall_mem_map,
  List.not_mem_nil, false_imp_iff, implies_true, and_true, true_and, Option.toList, List.map_nil, List.map_cons])

theorem formed_key_literal {l : Loc} {v : Bytes} : Formed (.key (.literal l v)) := formed trivial (by kids)
theorem formed_key_binary {l : Loc} {v : Bytes} : Formed (.key (.binary l v)) := formed trivial (by kids)
theorem formed_key_computed {l : Loc} {e : Expr} (h : ExprOk e) : Formed (.key (.computed l e)) := formed trivial (by kids; exact h.formed)

/-- A statement that ends in an `if` without `else` is not followed by `else`. -/
theorem endsInIf_look {i j : List Item} {x : Phrase} (h : G i x j) : ∀ s, x = .stmt s → endsInIf s = true → look j ≠ .Else := by
  induction h <;> intro s hx <;> (try cases hx) <;> intro he <;> simp only [endsInIf] at he
  all_goals first
    | (cases he; done)
    | assumption
    | (rename_i ih; exact ih _ rfl he)

theorem dangling {i j k : List Item} {s : Stmt} (h : G i (.stmt s) j) (h' : Tk .Else j k) : endsInIf s = false := by
  cases he : endsInIf s with
  | false => rfl
  | true => exact absurd (by obtain ⟨w, l, rfl⟩ := h'; rfl) (endsInIf_look h s rfl he)

theorem claim {i j : List Item} {x : Phrase} (h : G i x j) : Claim i x j := by
  induction h with
  | whole h h' ih => exact ih
  | @ident i j k w hk h =>
    intro ht hh
    obtain ⟨a, rfl⟩ := h
    have hz : ∀ l a b, Expr.ident z w = .binary l .In a b → l = z := nofun
    refine ⟨ht, ⟨formed ?_ (by kids), rfl, hz⟩, fun hi => ?_, fun _ _ _ _ => rfl⟩
    · rcases hh with hh | ⟨-, hh⟩
      · exact .inl (TextOf.word (hh _ rfl) rfl)
      · exact .inr hh.1
    · have hp : ParamOk (.ident z w) := by
        intro p hp
        cases hp
        exact ⟨formed (show Word .Identifier w from TextOf.word (hi _ rfl) rfl) (by kids), rfl⟩
      exact ⟨hp, hp.params nofun⟩
  | this hk h =>
    intro ht hh
    exact mkExpr (tail_tk ht h) trivial (by kids) rfl nofun rfl rfl
  | @lit i j k t w v hk h hv =>
    intro ht hh
    obtain ⟨h1, h2⟩ := literalOf_text hv
    refine mkExpr (tail_wd ht h) ?_ (by kids) rfl nofun rfl rfl
    obtain ⟨a, rfl⟩ := h
    rcases hh with hh | ⟨-, hh⟩
    · exact h2 (hh _ rfl)
    · exact absurd hh.token h1
  | @regex j k w a hk =>
    intro ht hh
    refine mkExpr ht ?_ (by kids) rfl nofun rfl rfl
    rcases hh with hh | ⟨-, hh⟩
    · exact hh _ rfl
    · cases hh
  | array hk h h0 h1 h2 ih =>
    intro ht hh
    obtain ⟨h3, h4, h5⟩ := ih.of (tail_tk ht h)
    exact mkExpr (h3.tk h2) (fun l hl => h0 (h5 l hl)) (by kids; exact h4) rfl nofun rfl rfl
  | emptyArray hk h h2 =>
    intro ht hh
    exact mkExpr ((tail_tk ht h).tk h2) (fun l hl => by cases hl) (by kids) rfl nofun rfl rfl
  | object hk h h1 h2 ih =>
    intro ht hh
    obtain ⟨h3, h4⟩ := ih.of (tail_tk ht h)
    exact mkExpr (h3.tk h2) trivial (by kids; exact h4) rfl nofun rfl rfl
  | function hk h h1 ih =>
    intro ht hh
    obtain ⟨h3, h4, h5⟩ := ih.of (tail_tk ht h)
    exact mkExpr h3 h5 (by kids; exact h4) rfl nofun rfl rfl
  | «class» hk h h1 ih =>
    intro ht hh
    obtain ⟨h3, h4, h5⟩ := ih.of (tail_tk ht h)
    exact mkExpr h3 h5 (by kids; exact h4) rfl nofun rfl rfl
  | @template i j k es qs hk h ih =>
    intro ht hh
    have hh' : HeadText i := by
      rcases hh with hh | ⟨-, hh⟩
      · exact hh
      · exfalso
        cases h with
        | templateClosed h => obtain ⟨a, rfl⟩ := h; cases hh.token
        | templateOpen h => obtain ⟨a, rfl⟩ := h; cases hh.token
    obtain ⟨h1, h2, h3, h4⟩ := ih ht (.inl hh')
    exact mkExpr h1 ⟨fun e he => (h2 e he).proper, h3, h4⟩ (by kids; exact fun e he => (h2 e he).formed) rfl nofun rfl rfl
  | @paren i m n j k e hk h h1 h2 ih =>
    intro ht hh
    have hm := tail_tk ht h
    obtain ⟨h3, h4, h5, -⟩ := ih.of hm
    refine ⟨h3.tk h2, h4, fun _ => h5 hm.head, fun hw => ?_⟩
    obtain ⟨w, a, rfl⟩ := h
    cases hw.token
  | newTarget hk h h1 =>
    intro ht hh
    exact mkExpr ((tail_tk ht h).wd h1).2 ⟨rfl, rfl⟩ (by kids) rfl nofun rfl rfl
  | member hk h h1 ih =>
    intro ht hh
    obtain ⟨h2, h3, -⟩ := ih ht hh
    obtain ⟨h4, h5⟩ := ItemsOk.wd h2 h1
    exact mkExpr h5 ⟨h3.proper, h4.accessor rfl⟩ (by kids; exact h3.formed) rfl nofun rfl rfl
  | index hk h h1 h2 h3 ih ih' =>
    intro ht hh
    obtain ⟨h4, h5, -⟩ := ih ht hh
    obtain ⟨h6, h7, -⟩ := ih'.of (ItemsOk.tk h4 h1)
    exact mkExpr (h6.tk h3) ⟨h5.proper, h7.proper⟩ (by kids; exact ⟨h5.formed, h7.formed⟩) rfl nofun rfl rfl
  | call hk h h1 h2 h3 ih ih' =>
    intro ht hh
    obtain ⟨h4, h5, -⟩ := ih ht hh
    obtain ⟨h6, h7⟩ := ih'.of (ItemsOk.tk h4 h1)
    exact mkExpr (h6.tk h3) ⟨h5.proper, fun e he => (h7 e he).2⟩ (by kids; exact ⟨h5.formed, fun e he => (h7 e he).1⟩) rfl nofun rfl rfl
  | tagged hk h h1 ih ih' =>
    intro ht hh
    obtain ⟨h4, h5, -⟩ := ih ht hh
    obtain ⟨h6, h7, h8, h9⟩ := ih'.of h4
    exact mkExpr h6 ⟨h5.proper, fun e he => (h7 e he).proper, h8, h9⟩ (by kids; exact ⟨h5.formed, fun e he => (h7 e he).formed⟩) rfl nofun rfl rfl
  | «postfix» hk h he hop ha ih =>
    intro ht hh
    obtain ⟨h4, h5, -⟩ := ih ht hh
    exact mkExpr (fun y hy => h4 y (.tail _ hy)) ⟨postfixOp_operator hop, he⟩ (by kids; exact h5.formed) rfl nofun rfl rfl
  | arrow hk h hp h1 hb h2 ih ih' =>
    intro ht hh
    obtain ⟨h4, h5⟩ := ih ht hh
    obtain ⟨h6, h7, -⟩ := ih'.of (ItemsOk.tk h4 h1)
    have h8 := arrow_params hh h5 hp h1
    exact mkExpr h6 ⟨fun p hp => (h8 p hp).2, h7.proper⟩ (by kids; exact ⟨fun p hp => (h8 p hp).1, h7.formed⟩) rfl nofun rfl rfl
  | @arrowBlock i m n j k e ps b hk h hp h1 h2 ih ih' =>
    intro ht hh
    obtain ⟨h4, h5⟩ := ih ht hh
    obtain ⟨h6, h7⟩ := ih'.of (ItemsOk.tk h4 h1)
    have h8 := arrow_params hh h5 hp h1
    obtain ⟨l, b⟩ := b
    exact mkExpr h6 (fun p hp => (h8 p hp).2) (by kids; exact ⟨fun p hp => (h8 p hp).1, h7⟩) rfl nofun rfl rfl
  | arrow0 hk h h0 h1 hb h2 ih =>
    intro ht hh
    obtain ⟨h6, h7, -⟩ := ih.of (((tail_tk ht h).tk h0).tk h1)
    exact mkExpr h6 ⟨nofun, h7.proper⟩ (by kids; exact h7.formed) rfl nofun rfl rfl
  | @arrowBlock0 i m n o j k b hk h h0 h1 h2 ih =>
    intro ht hh
    obtain ⟨h6, h7⟩ := ih.of (((tail_tk ht h).tk h0).tk h1)
    obtain ⟨l, b⟩ := b
    exact mkExpr h6 nofun (by kids; exact h7) rfl nofun rfl rfl
  | «prefix» hk h hop h1 ih =>
    intro ht hh
    obtain ⟨h6, h7, -⟩ := ih.of (tail_tk ht h)
    exact mkExpr h6 ⟨h7.proper, .inl (prefixOp_operator hop).1⟩ (by kids; exact h7.formed) rfl nofun rfl rfl
  | new hk h hm h1 ih =>
    intro ht hh
    obtain ⟨h6, h7, -⟩ := ih.of (tail_tk ht h)
    exact mkExpr h6 ⟨h7.proper, .inr rfl⟩ (by kids; exact h7.formed) rfl nofun rfl rfl
  | binary hop hk h h1 h2 ih ih' =>
    intro ht hh
    obtain ⟨h4, h5, -⟩ := ih ht hh
    obtain ⟨h6, h7, -⟩ := ih'.of (ItemsOk.tk h4 h1)
    obtain ⟨h8, h9, h10⟩ := binaryOp_precedence hop
    exact mkExpr h6 ⟨h5.proper, h7.proper, .inl h8⟩ (by kids; exact ⟨h5.formed, h7.formed⟩) rfl (fun l a b h => by cases h; rfl) (h10 _ _ _)
      (by simp [paramsOf, h10])
  | cond hk h h1 h2 h3 h4 ih ih1 ih2 =>
    intro ht hh
    obtain ⟨t4, t5, -⟩ := ih ht hh
    obtain ⟨t6, t7, -⟩ := ih1.of (ItemsOk.tk t4 h1)
    obtain ⟨t8, t9, -⟩ := ih2.of (t6.tk h3)
    exact mkExpr t8 ⟨t5.proper, t7.proper, t9.proper⟩ (by kids; exact ⟨t5.formed, t7.formed, t9.formed⟩) rfl nofun rfl rfl
  | @assign i m n j k t op a b hk h ha h1 hop h2 ih ih' =>
    intro ht hh
    obtain ⟨h4, h5, hi, -⟩ := ih ht hh
    obtain ⟨h6, h7, -⟩ := ih'.of (ItemsOk.tk h4 h1)
    obtain ⟨h8, h9, -⟩ := assignOp_operator hop
    refine ⟨h6, ⟨formed ⟨target_proper ha, h7.proper, .inr ⟨h8, ha⟩⟩ (by kids; exact ⟨h5.formed, h7.formed⟩), rfl, fun l a b h => by cases h; rfl⟩,
      fun hi' => ?_, fun _ h => by omega⟩
    have := assign_param (l := z) (op := op) ha (hi hi').1 h7
    exact ⟨this, this.params nofun⟩
  | @comma i m n j a es h h1 h2 ih ih' =>
    intro ht hh
    obtain ⟨h4, h5, hi, -⟩ := ih ht hh
    obtain ⟨h6, h7, h8⟩ := ih'.of (ItemsOk.tk h4 h1)
    refine ⟨h6, ⟨formed ⟨?_, ?_⟩ (by kids; exact ⟨h5.formed, fun e he => (h7 e he).1.formed⟩), rfl, nofun⟩, fun hi' => ⟨nofun, ?_⟩, fun _ h => by omega⟩
    · have := List.length_pos_iff.2 h8
      simp only [List.length_cons]; omega
    · simp only [List.forall_mem_cons]
      exact ⟨h5.proper, fun e he => (h7 e he).1.proper⟩
    · intro ps hps p hp
      obtain ⟨e, he, hpe⟩ := mapM_mem hps p hp
      cases he with
      | head => exact (hi hi').1 p hpe
      | tail _ he => exact (h7 e he).2 p hpe
  | commaLast h h' ih =>
    intro ht hh
    have hi := itemsOk ht hh rfl
    obtain ⟨h1, h2, h3, -⟩ := ih.of hi
    refine ⟨h1, ?_, by simp⟩
    simp only [List.forall_mem_cons, List.not_mem_nil, false_imp_iff, implies_true, and_true]
    exact ⟨h2, (h3 hi.head).1⟩
  | commaMore h h1 h2 ih ih' =>
    intro ht hh
    have hi := itemsOk ht hh rfl
    obtain ⟨t1, t2, t3, -⟩ := ih.of hi
    obtain ⟨t4, t5, -⟩ := ih'.of (t1.tk h1)
    refine ⟨t4, ?_, by simp⟩
    simp only [List.forall_mem_cons]
    exact ⟨⟨t2, (t3 hi.head).1⟩, t5⟩
  | @arg i j e h ih =>
    intro ht hh
    obtain ⟨t1, t2, -⟩ := ih.of (itemsOk ht hh rfl)
    refine ⟨t1, t2.formed, ?_⟩
    have := t2.proper
    cases e <;> first | rfl | cases this
  | argSpread h h1 ih =>
    intro ht hh
    obtain ⟨t1, t2, -⟩ := ih.of ((itemsOk ht hh rfl).tk h)
    exact ⟨t1, formed t2.proper (by kids; exact t2.formed), rfl⟩
  | argsNone h => exact fun ht hh => ⟨itemsOk ht hh rfl, nofun⟩
  | argsLast h h' ih =>
    intro ht hh
    obtain ⟨t1, t2⟩ := ih.of (itemsOk ht hh rfl)
    refine ⟨t1, ?_⟩
    simp only [PhraseOk, List.forall_mem_cons, List.not_mem_nil, false_imp_iff, implies_true, and_true]
    exact t2
  | argsMore h h1 h2 ih ih' =>
    intro ht hh
    obtain ⟨t1, t2⟩ := ih.of (itemsOk ht hh rfl)
    obtain ⟨t3, t4⟩ := ih'.of (t1.tk h1)
    refine ⟨t3, ?_⟩
    simp only [PhraseOk, List.forall_mem_cons]
    exact ⟨t2, t4⟩
  | @elem i j e h ih =>
    intro ht hh
    obtain ⟨t1, t2, -⟩ := ih.of (itemsOk ht hh rfl)
    refine ⟨t1, t2.formed, ?_⟩
    have := t2.proper
    have hv : isVoid e = false := by cases e <;> first | rfl | cases this
    exact fun h => by rw [hv] at h; cases h
  | elemSpread h h1 ih =>
    intro ht hh
    obtain ⟨t1, t2, -⟩ := ih.of ((itemsOk ht hh rfl).tk h)
    exact ⟨t1, formed t2.proper (by kids; exact t2.formed), nofun⟩
  | elemHole h => exact fun ht hh => ⟨itemsOk ht hh rfl, formed trivial (by kids), fun _ => rfl⟩
  | elemsLast h h' ih =>
    intro ht hh
    obtain ⟨t1, t2, t3⟩ := ih.of (itemsOk ht hh rfl)
    refine ⟨t1, ?_, ?_⟩
    · simp only [List.forall_mem_cons, List.not_mem_nil, false_imp_iff, implies_true, and_true]
      exact t2
    · intro l hl
      cases hl
      rw [← t3 rfl]
      exact h'
  | @elemsMore i m n j e es h h1 h2 ih ih' =>
    intro ht hh
    obtain ⟨t1, t2, t3⟩ := ih.of (itemsOk ht hh rfl)
    obtain ⟨t4, t5, -⟩ := ih'.of (t1.tk h1)
    refine ⟨t4, ?_, ?_⟩
    · simp only [List.forall_mem_cons]
      exact ⟨t2, t5⟩
    · intro l hl
      cases hl
      cases h2
  | templateClosed h =>
    intro ht hh
    obtain ⟨t1, t2⟩ := (itemsOk ht hh rfl).wd h
    exact ⟨t2, nofun, rfl, by simpa using t1.template (.inr rfl)⟩
  | templateOpen h h1 h2 ih ih' =>
    intro ht hh
    obtain ⟨t1, t2⟩ := (itemsOk ht hh rfl).wd h
    obtain ⟨t3, t4, -⟩ := ih.of t2
    obtain ⟨t5, t6, t7, t8⟩ := ih'.of t3
    refine ⟨t5, ?_, by simp [t7], ?_⟩
    · simp only [List.forall_mem_cons]; exact ⟨t4, t6⟩
    · simp only [List.forall_mem_cons]; exact ⟨t1.template (.inl rfl), t8⟩
  | templateEnd =>
    intro ht hh
    refine ⟨ht, nofun, rfl, ?_⟩
    rcases hh with hh | ⟨hh, -⟩
    · have : TplBody _ := hh _ rfl
      simpa using this
    · cases hh
  | templateMore h1 h2 ih ih' =>
    intro ht hh
    have hi := itemsOk ht hh rfl
    obtain ⟨t3, t4, -⟩ := ih.of ht
    obtain ⟨t5, t6, t7, t8⟩ := ih'.of t3
    refine ⟨t5, ?_, by simp [t7], ?_⟩
    · simp only [List.forall_mem_cons]; exact ⟨t4, t6⟩
    · simp only [List.forall_mem_cons]; exact ⟨hi _ (.head _), t8⟩
  | shorthand h ht' h1 h2 =>
    intro ht hh
    obtain ⟨t1, t2⟩ := (itemsOk ht hh rfl).wd h
    exact ⟨t2, formed ⟨_, t1.word ht', ht'⟩ (by kids)⟩
  | propWord h ht' h1 ih =>
    intro ht hh
    obtain ⟨t1, t2⟩ := (itemsOk ht hh rfl).wd h
    obtain ⟨t3, t4⟩ := ih.of t2
    exact ⟨t3, t4 (.inl ⟨_, t1.word ht', ht'⟩) formed_key_literal⟩
  | propLiteral h ht' h1 ih =>
    intro ht hh
    obtain ⟨t1, t2⟩ := (itemsOk ht hh rfl).wd h
    obtain ⟨t3, t4⟩ := ih.of t2
    refine ⟨t3, t4 ?_ formed_key_literal⟩
    rcases ht' with rfl | rfl
    · exact .inr (.inl (t1.string rfl))
    · exact .inr (.inr (t1.number rfl))
  | propBinary h h1 ih =>
    intro ht hh
    obtain ⟨t1, t2⟩ := (itemsOk ht hh rfl).wd h
    obtain ⟨t3, t4⟩ := ih.of t2
    exact ⟨t3, t4 (t1.binary rfl) formed_key_binary⟩
  | propComputed h h1 h2 h3 ih ih' =>
    intro ht hh
    obtain ⟨t1, t2, -⟩ := ih.of ((itemsOk ht hh rfl).tk h)
    obtain ⟨t3, t4⟩ := ih'.of (t1.tk h2)
    exact ⟨t3, t4 t2.proper (formed_key_computed t2)⟩
  | propSpread h h1 ih =>
    intro ht hh
    obtain ⟨t1, t2, -⟩ := ih.of ((itemsOk ht hh rfl).tk h)
    exact ⟨t1, formed t2.proper (by kids; exact t2.formed)⟩
  | propField h h1 ih =>
    intro ht hh
    obtain ⟨t1, t2, -⟩ := ih.of ((itemsOk ht hh rfl).tk h)
    exact ⟨t1, fun hk hf => formed ⟨hk, t2.proper⟩ (by kids; exact ⟨hf, t2.formed⟩)⟩
  | propMethod h h1 ih =>
    intro ht hh
    obtain ⟨t1, t2, t3⟩ := ih.of (itemsOk ht hh rfl)
    exact ⟨t1, fun hk hf => formed ⟨hk, t3⟩ (by kids; exact ⟨hf, t2⟩)⟩
  | propsNone h => exact fun ht hh => ⟨itemsOk ht hh rfl, nofun⟩
  | propsLast h h' ih =>
    intro ht hh
    obtain ⟨t1, t2⟩ := ih.of (itemsOk ht hh rfl)
    exact ⟨t1, by simpa [PhraseOk] using t2⟩
  | propsMore h h1 h2 ih ih' =>
    intro ht hh
    obtain ⟨t1, t2⟩ := ih.of (itemsOk ht hh rfl)
    obtain ⟨t3, t4⟩ := ih'.of (t1.tk h1)
    exact ⟨t3, List.forall_mem_cons.2 ⟨t2, t4⟩⟩
  | patIdent h =>
    intro ht hh
    obtain ⟨t1, t2⟩ := (itemsOk ht hh rfl).wd h
    exact ⟨t2, formed (t1.word rfl) (by kids), rfl⟩
  | patArray h h0 h1 h2 ih =>
    intro ht hh
    obtain ⟨t1, t2, t3⟩ := ih.of ((itemsOk ht hh rfl).tk h)
    exact ⟨t1.tk h2, formed ⟨fun p hp => (t2 p hp).2, fun l hl => h0 (t3 l hl)⟩ (by kids; exact fun p hp => (t2 p hp).1), rfl⟩
  | patEmptyArray h h2 =>
    intro ht hh
    exact ⟨((itemsOk ht hh rfl).tk h).tk h2, formed ⟨nofun, nofun⟩ (by kids), rfl⟩
  | patObject h h1 h2 ih =>
    intro ht hh
    obtain ⟨t1, t2⟩ := ih.of ((itemsOk ht hh rfl).tk h)
    exact ⟨t1.tk h2, formed trivial (by kids; exact t2), rfl⟩
  | @param i j p h h' ih =>
    intro ht hh
    obtain ⟨t1, t2, t3⟩ := ih.of (itemsOk ht hh rfl)
    refine ⟨t1, t2, ?_⟩
    cases p <;> first | exact ⟨rfl, rfl⟩ | cases t3
  | paramDefault h h1 h2 ih ih' =>
    intro ht hh
    obtain ⟨t1, t2, t3⟩ := ih.of (itemsOk ht hh rfl)
    obtain ⟨t4, t5, -⟩ := ih'.of (t1.tk h1)
    exact ⟨t4, formed ⟨t3, t5.proper⟩ (by kids; exact ⟨t2, t5.formed⟩), rfl, rfl⟩
  | patElem h ih =>
    intro ht hh
    obtain ⟨t1, t2, t3, t4⟩ := ih.of (itemsOk ht hh rfl)
    exact ⟨t1, t2, t3, fun h => by rw [t4] at h; cases h⟩
  | patHole h => exact fun ht hh => ⟨itemsOk ht hh rfl, formed trivial (by kids), rfl, fun _ => rfl⟩
  | patElemsLast h h' ih =>
    intro ht hh
    obtain ⟨t1, t2, t3, t4⟩ := ih.of (itemsOk ht hh rfl)
    refine ⟨t1, by simpa using ⟨t2, t3⟩, ?_⟩
    intro l hl
    cases hl
    rw [← t4 rfl]
    exact h'
  | patElemsMore h h1 h2 ih ih' =>
    intro ht hh
    obtain ⟨t1, t2, t3, t4⟩ := ih.of (itemsOk ht hh rfl)
    obtain ⟨t5, t6, -⟩ := ih'.of (t1.tk h1)
    refine ⟨t5, List.forall_mem_cons.2 ⟨⟨t2, t3⟩, t6⟩, ?_⟩
    intro l hl
    cases hl
    cases h2
  | paramsNone h => exact fun ht hh => ⟨(itemsOk ht hh rfl).tk h, nofun, nofun⟩
  | paramsRest h h1 h2 =>
    intro ht hh
    obtain ⟨t1, t2⟩ := ((itemsOk ht hh rfl).tk h).wd h1
    have : Formed (.pat (.rest z ⟨z, _⟩)) := formed (t1.word rfl) (by kids)
    exact ⟨t2.tk h2, by simpa using ⟨this, rfl⟩, nofun⟩
  | paramsLast h h1 ih =>
    intro ht hh
    obtain ⟨t1, t2, t3, t4⟩ := ih.of (itemsOk ht hh rfl)
    exact ⟨t1.tk h1, by simpa using ⟨t2, t4⟩, nofun⟩
  | @paramsMore i m n j p ps h h1 h2 ih ih' =>
    intro ht hh
    obtain ⟨t1, t2, t3, t4⟩ := ih.of (itemsOk ht hh rfl)
    obtain ⟨t5, t6, t7⟩ := ih'.of (t1.tk h1)
    refine ⟨t5, List.forall_mem_cons.2 ⟨⟨t2, t4⟩, t6⟩, ?_⟩
    cases ps with
    | nil => nofun
    | cons q ps =>
      rw [List.dropLast_cons_cons]
      exact List.forall_mem_cons.2 ⟨t3, t7⟩
  | @func i m n o q j nk g nm ps b h h1 h2 h3 h4 ih ih' =>
    intro ht hh
    obtain ⟨t1, t2, t3⟩ := nameAt_ok h1 (starAt_ok h (itemsOk ht hh rfl))
    obtain ⟨t4, t5, t6⟩ := ih.of (t1.tk h2)
    obtain ⟨t7, t8⟩ := ih'.of t4
    obtain ⟨l, b⟩ := b
    exact ⟨t7, formed ⟨t2, fun p hp => (t5 p hp).2, t6⟩ (by kids; exact ⟨fun p hp => (t5 p hp).1, t8⟩), t3⟩
  | cls h h1 h2 h0 ih =>
    intro ht hh
    obtain ⟨t1, t2, t3⟩ := nameAt_ok h (itemsOk ht hh rfl)
    obtain ⟨t4, t5⟩ := ih.of (t1.tk h1)
    exact ⟨t4, formed ⟨t2, nofun⟩ (by kids; exact t5), t3⟩
  | clsExtends h h1 h2 h3 h4 h0 ih ih' =>
    intro ht hh
    obtain ⟨t1, t2, t3⟩ := nameAt_ok h (itemsOk ht hh rfl)
    obtain ⟨t4, t5, -⟩ := ih.of (t1.tk h1)
    obtain ⟨t6, t7⟩ := ih'.of (t4.tk h3)
    exact ⟨t6, formed ⟨t2, by simpa using t5.proper⟩ (by kids; exact ⟨t5.formed, t7⟩), t3⟩
  | @memberWord i m n j s t w x h h1 ht' hn h2 ih =>
    intro ht hh
    obtain ⟨t1, t2⟩ := staticAt_ok h (itemsOk ht hh rfl)
    obtain ⟨t3, t4⟩ := t1.wd h1
    obtain ⟨t5, t6⟩ := ih.of t4
    refine ⟨t5, t6 (.inl ⟨_, t3.word ht', ht'⟩) ?_ formed_key_literal⟩
    split
    · rename_i hc
      obtain ⟨rfl, rfl⟩ := hc
      exact ⟨rfl, _, rfl⟩
    · rename_i hc
      intro l v hv hs
      cases hv
      refine ⟨fun hw => hc ⟨hs, hw⟩, fun hw => t2 hs ?_⟩
      subst hw
      obtain ⟨a, rfl⟩ := h1
      exact word_identifier (t3.word ht') (by decide +kernel)
  | memberGet h h1 ht' h2 ht2 h3 ih =>
    intro ht hh
    obtain ⟨t1, t2⟩ := staticAt_ok h (itemsOk ht hh rfl)
    obtain ⟨t3, t4⟩ := t1.wd h1
    obtain ⟨t5, t6⟩ := t4.wd h2
    obtain ⟨t7, t8⟩ := ih.of t6
    exact ⟨t7, t8 (.inl ⟨_, t5.word ht2, ht2⟩) ⟨_, _, rfl, _, t5.word ht2, ht2⟩ formed_key_literal⟩
  | memberSet h h1 ht' h2 ht2 h3 ih =>
    intro ht hh
    obtain ⟨t1, t2⟩ := staticAt_ok h (itemsOk ht hh rfl)
    obtain ⟨t3, t4⟩ := t1.wd h1
    obtain ⟨t5, t6⟩ := t4.wd h2
    obtain ⟨t7, t8⟩ := ih.of t6
    exact ⟨t7, t8 (.inl ⟨_, t5.word ht2, ht2⟩) ⟨_, _, rfl, _, t5.word ht2, ht2⟩ formed_key_literal⟩
  | memberNumber h h1 h2 ih =>
    intro ht hh
    obtain ⟨t1, t2⟩ := staticAt_ok h (itemsOk ht hh rfl)
    obtain ⟨t3, t4⟩ := t1.wd h1
    obtain ⟨t5, t6⟩ := ih.of t4
    refine ⟨t5, t6 (.inr (t3.number rfl)) ?_ formed_key_literal⟩
    intro l v hv hs
    cases hv
    obtain ⟨r, hr⟩ := t3.number rfl
    exact ⟨number_constructor hr, number_static hr⟩
  | memberBinary h h1 h2 ih =>
    intro ht hh
    obtain ⟨t1, t2⟩ := staticAt_ok h (itemsOk ht hh rfl)
    obtain ⟨t3, t4⟩ := t1.wd h1
    obtain ⟨t5, t6⟩ := ih.of t4
    exact ⟨t5, t6 (t3.binary rfl) nofun formed_key_binary⟩
  | memberComputed h h1 h2 h3 h4 ih ih' =>
    intro ht hh
    obtain ⟨t1, t2⟩ := staticAt_ok h (itemsOk ht hh rfl)
    obtain ⟨t3, t4, -⟩ := ih.of (t1.tk h1)
    obtain ⟨t5, t6⟩ := ih'.of (t3.tk h3)
    exact ⟨t5, t6 t4.proper nofun (formed_key_computed t4)⟩
  | memberMethod h h1 h2 ih =>
    intro ht hh
    obtain ⟨t1, t2, t3⟩ := ih.of (itemsOk ht hh rfl)
    exact ⟨optSemi_ok h2 t1, fun hk hm hf => formed ⟨hk, hm, t3⟩ (by kids; exact ⟨hf, t2⟩)⟩
  | memberField h h1 h2 ih =>
    intro ht hh
    obtain ⟨t1, t2, -⟩ := ih.of ((itemsOk ht hh rfl).tk h)
    exact ⟨optSemi_ok h2 t1, fun hk hm hf => formed ⟨hk, t2.proper⟩ (by kids; exact ⟨hf, t2.formed⟩)⟩
  | membersClose h => exact fun ht hh => ⟨(itemsOk ht hh rfl).tk h, nofun⟩
  | membersEnd => exact fun ht hh => ⟨nofun, nofun⟩
  | membersMore h h1 ih ih' =>
    intro ht hh
    obtain ⟨t1, t2⟩ := ih.of (itemsOk ht hh rfl)
    obtain ⟨t3, t4⟩ := ih'.of t1
    exact ⟨t3, List.forall_mem_cons.2 ⟨t2, t4⟩⟩
  | block h h1 h0 ih => exact fun ht hh => ih.of ((itemsOk ht hh rfl).tk h)
  | stmtsClose h => exact fun ht hh => ⟨(itemsOk ht hh rfl).tk h, nofun⟩
  | stmtsEnd => exact fun ht hh => ⟨nofun, nofun⟩
  | stmtsMore h h1 ih ih' =>
    intro ht hh
    obtain ⟨t1, t2⟩ := ih.of (itemsOk ht hh rfl)
    obtain ⟨t3, t4⟩ := ih'.of t1
    exact ⟨t3, List.forall_mem_cons.2 ⟨t2, t4⟩⟩
  | empty h => exact fun ht hh => ⟨(itemsOk ht hh rfl).tk h, formed trivial (by kids)⟩
  | debugger h => exact fun ht hh => ⟨(itemsOk ht hh rfl).tk h, formed trivial (by kids)⟩
  | blockStmt h ih =>
    intro ht hh
    obtain ⟨t1, t2⟩ := ih.of (itemsOk ht hh rfl)
    exact ⟨t1, formed trivial (by kids; exact t2)⟩
  | exprStmt h1 h2 h3 h4 h h5 ih =>
    intro ht hh
    obtain ⟨t1, t2, -⟩ := ih.of (itemsOk ht hh rfl)
    exact ⟨semi_ok h5 t1, formed t2.proper (by kids; exact t2.formed)⟩
  | @importExpr w a i m j e h1 h h5 ih =>
    intro ht hh
    have hi := itemsOk ht hh rfl
    have hw : w = bs!"import" := word_import ((hi _ (.head _)).word rfl)
    obtain ⟨t1, t2, -⟩ := ih ht (.inr ⟨rfl, hw, h1⟩)
    exact ⟨semi_ok h5 t1, formed t2.proper (by kids; exact t2.formed)⟩
  | declStmt h hk h1 h2 ih =>
    intro ht hh
    obtain ⟨t1, t2, t3, -⟩ := ih.of ((itemsOk ht hh rfl).tk h)
    exact ⟨semi_ok h2 t1, formed t3 (by kids; exact t2)⟩
  | ret h h1 => exact fun ht hh => ⟨semi_ok h1 ((itemsOk ht hh rfl).tk h), formed nofun (by kids)⟩
  | retValue h h0 h1 h2 ih =>
    intro ht hh
    obtain ⟨t1, t2, -⟩ := ih.of ((itemsOk ht hh rfl).tk h)
    exact ⟨semi_ok h2 t1, formed (by simpa [WellFormed] using t2.proper) (by kids; exact t2.formed)⟩
  | brk h h1 => exact fun ht hh => ⟨semi_ok h1 ((itemsOk ht hh rfl).tk h), formed nofun (by kids)⟩
  | brkLabel h h0 h1 h2 =>
    intro ht hh
    obtain ⟨t1, t2⟩ := ((itemsOk ht hh rfl).tk h).wd h1
    exact ⟨semi_ok h2 t2, formed (by simpa [WellFormed] using t1.word rfl) (by kids)⟩
  | cont h h1 => exact fun ht hh => ⟨semi_ok h1 ((itemsOk ht hh rfl).tk h), formed nofun (by kids)⟩
  | contLabel h h0 h1 h2 =>
    intro ht hh
    obtain ⟨t1, t2⟩ := ((itemsOk ht hh rfl).tk h).wd h1
    exact ⟨semi_ok h2 t2, formed (by simpa [WellFormed] using t1.word rfl) (by kids)⟩
  | throw h h1 h2 ih =>
    intro ht hh
    obtain ⟨t1, t2, -⟩ := ih.of ((itemsOk ht hh rfl).tk h)
    exact ⟨semi_ok h2 t1, formed t2.proper (by kids; exact t2.formed)⟩
  | ifThen h h1 h2 h3 h4 h5 ih ih' =>
    intro ht hh
    obtain ⟨t1, t2, -⟩ := ih.of (((itemsOk ht hh rfl).tk h).tk h1)
    obtain ⟨t3, t4⟩ := ih'.of (t1.tk h3)
    exact ⟨t3, formed ⟨t2.proper, fun h => absurd rfl h⟩ (by kids; exact ⟨t2.formed, t4⟩)⟩
  | ifElse h h1 h2 h3 h4 h5 h6 ih ih' ih2 =>
    intro ht hh
    obtain ⟨t1, t2, -⟩ := ih.of (((itemsOk ht hh rfl).tk h).tk h1)
    obtain ⟨t3, t4⟩ := ih'.of (t1.tk h3)
    obtain ⟨t5, t6⟩ := ih2.of (t3.tk h5)
    exact ⟨t5, formed ⟨t2.proper, fun _ => dangling h4 h5⟩ (by kids; exact ⟨⟨t2.formed, t4⟩, t6⟩)⟩
  | whileLoop h h1 h2 h3 h4 ih ih' =>
    intro ht hh
    obtain ⟨t1, t2, -⟩ := ih.of (((itemsOk ht hh rfl).tk h).tk h1)
    obtain ⟨t3, t4⟩ := ih'.of (t1.tk h3)
    exact ⟨t3, formed t2.proper (by kids; exact ⟨t2.formed, t4⟩)⟩
  | doLoop h h1 h2 h3 h4 h5 ih ih' =>
    intro ht hh
    obtain ⟨t1, t2⟩ := ih.of ((itemsOk ht hh rfl).tk h)
    obtain ⟨t3, t4, -⟩ := ih'.of ((t1.tk h2).tk h3)
    exact ⟨t3.tk h5, formed t4.proper (by kids; exact ⟨t2, t4.formed⟩)⟩
  | forLoop h h1 h2 h3 h4 h5 ih1 ih2 ih3 =>
    intro ht hh
    obtain ⟨t1, t2⟩ := ih1.of ((((itemsOk ht hh rfl).tk h).tk h1).tk h2)
    obtain ⟨t3, t4⟩ := ih2.of t1
    obtain ⟨t5, t6⟩ := ih3.of t3
    refine ⟨t5, formed ⟨nofun, fun e he => (t2 e he).proper, fun e he => (t4 e he).proper⟩ ?_⟩
    simp only [Node.children, List.forall_mem_append, List.forall_mem_cons, List.forall_mem_map, Option.mem_toList]
    exact ⟨⟨⟨nofun, fun e he => (t2 e he).formed⟩, fun e he => (t4 e he).formed⟩, t6, nofun⟩
  | forLoopInit h h1 h2 h2' h3 h4 h5 ih0 ih1 ih2 ih3 =>
    intro ht hh
    obtain ⟨s1, s2, s3, s4⟩ := ih0.of (((itemsOk ht hh rfl).tk h).tk h1)
    obtain ⟨t1, t2⟩ := ih1.of (s1.tk h2')
    obtain ⟨t3, t4⟩ := ih2.of t1
    obtain ⟨t5, t6⟩ := ih3.of t3
    refine ⟨t5, formed ⟨fun l e he => s4 l e (by cases he; rfl), fun e he => (t2 e he).proper, fun e he => (t4 e he).proper⟩ ?_⟩
    simp only [Node.children, List.forall_mem_append, List.forall_mem_cons, List.forall_mem_map, Option.mem_toList]
    exact ⟨⟨⟨fun x hx => (by cases hx; exact s2), fun e he => (t2 e he).formed⟩, fun e he => (t4 e he).formed⟩, t6, nofun⟩
  | forInDecl h h1 h2 h3 h4 h5 h6 ih0 ih1 ih2 =>
    intro ht hh
    obtain ⟨s1, s2, s3, s4⟩ := ih0.of (((itemsOk ht hh rfl).tk h).tk h1)
    obtain ⟨t1, t2, -⟩ := ih1.of (s1.tk h3)
    obtain ⟨t3, t4⟩ := ih2.of (t1.tk h5)
    refine ⟨t3, formed ⟨?_, t2.proper⟩ (by kids; exact ⟨s2, t2.formed, t4⟩)⟩
    intro l k ds he d hd
    have := s3 l k ds he d hd
    obtain ⟨w, a, rfl⟩ := h3
    cases hi : hasInit d with
    | false => rfl
    | true => cases this hi
  | forInExpr h h1 h2 h3 h4 ih ih' =>
    intro ht hh
    obtain ⟨t1, t2, -⟩ := ih.of (((itemsOk ht hh rfl).tk h).tk h1)
    obtain ⟨t3, t4⟩ := ih'.of (t1.tk h3)
    obtain ⟨hw, hc⟩ := Node.forall_iff.1 t2.formed
    have ha := hc (.expr _) (by simp only [Node.children]; exact .head _)
    have hb := hc (.expr _) (by simp only [Node.children]; exact .tail _ (.head _))
    refine ⟨t3, formed ⟨nofun, hw.2.1⟩ (by kids; exact ⟨formed hw.1 (by kids; exact ha), hb, t4⟩)⟩
  | forOf h h1 h2 h3 h4 h5 h6 ih0 ih1 ih2 =>
    intro ht hh
    obtain ⟨s1, s2, s3, s4⟩ := ih0.of (((itemsOk ht hh rfl).tk h).tk h1)
    obtain ⟨t1, t2, -⟩ := ih1.of (s1.wd h3).2
    obtain ⟨t3, t4⟩ := ih2.of (t1.tk h5)
    exact ⟨t3, formed ⟨s4, t2.proper⟩ (by kids; exact ⟨s2, t2.formed, t4⟩)⟩
  | forInitDecl h hk h1 ih =>
    intro ht hh
    obtain ⟨t1, t2, t3, t4⟩ := ih.of ((itemsOk ht hh rfl).tk h)
    exact ⟨t1, formed t3 (by kids; exact t2), fun l k ds he => (by cases he; exact t4), nofun⟩
  | @forInitExpr i j e h h1 ih =>
    intro ht hh
    obtain ⟨t1, t2, -⟩ := ih.of (itemsOk ht hh rfl)
    refine ⟨t1, formed t2.proper (by kids; exact t2.formed), nofun, ?_⟩
    intro l e' he
    cases he
    cases hi : isIn e with
    | false => rfl
    | true =>
      unfold isIn at hi
      split at hi
      · rename_i l' a b
        cases t2.zIn l' a b rfl
        exact absurd rfl (h1 a b)
      · cases hi
  | optExprNone h => exact fun ht hh => ⟨(itemsOk ht hh rfl).tk h, nofun⟩
  | optExprSome h h1 ih =>
    intro ht hh
    obtain ⟨t1, t2, -⟩ := ih.of (itemsOk ht hh rfl)
    exact ⟨t1.tk h1, fun x hx => by cases hx; exact t2⟩
  | @tryCatch i m n j b c h h1 h2 h3 ih ih' =>
    intro ht hh
    obtain ⟨t1, t2⟩ := ih.of ((itemsOk ht hh rfl).tk h)
    obtain ⟨t3, t4⟩ := ih'.of t1
    obtain ⟨l, b⟩ := b
    exact ⟨t3, formed nofun (by kids; exact ⟨formed trivial (by kids; exact t2), t4⟩)⟩
  | @tryCatchFinally i m n o q j b c f h h1 h2 h3 h4 ih ih' ih2 =>
    intro ht hh
    obtain ⟨t1, t2⟩ := ih.of ((itemsOk ht hh rfl).tk h)
    obtain ⟨t3, t4⟩ := ih'.of t1
    obtain ⟨t5, t6⟩ := ih2.of (t3.tk h3)
    obtain ⟨l, b⟩ := b
    obtain ⟨l', f⟩ := f
    exact ⟨t5, formed nofun (by kids; exact ⟨⟨formed trivial (by kids; exact t2), t4⟩, formed trivial (by kids; exact t6)⟩)⟩
  | @tryFinally i m n o j b f h h1 h3 h4 ih ih2 =>
    intro ht hh
    obtain ⟨t1, t2⟩ := ih.of ((itemsOk ht hh rfl).tk h)
    obtain ⟨t5, t6⟩ := ih2.of (t1.tk h3)
    obtain ⟨l, b⟩ := b
    obtain ⟨l', f⟩ := f
    exact ⟨t5, formed nofun (by kids; exact ⟨formed trivial (by kids; exact t2), formed trivial (by kids; exact t6)⟩)⟩
  | @«catch» i m n o q j p b h h1 h2 h3 h4 ih ih' =>
    intro ht hh
    obtain ⟨t1, t2, t3⟩ := ih.of (((itemsOk ht hh rfl).tk h).tk h1)
    obtain ⟨t4, t5⟩ := ih'.of (t1.tk h3)
    obtain ⟨l, b⟩ := b
    exact ⟨t4, formed t3 (by kids; exact ⟨t2, formed trivial (by kids; exact t5)⟩)⟩
  | switch h h1 h2 h3 h4 h5 ih ih' =>
    intro ht hh
    obtain ⟨t1, t2, -⟩ := ih.of (((itemsOk ht hh rfl).tk h).tk h1)
    obtain ⟨t3, t4⟩ := ih'.of ((t1.tk h3).tk h4)
    exact ⟨t3, formed t2.proper (by kids; exact ⟨t2.formed, formed trivial (by kids; exact t4)⟩)⟩
  | casesClose h => exact fun ht hh => ⟨(itemsOk ht hh rfl).tk h, nofun⟩
  | casesMore h h1 ih ih' =>
    intro ht hh
    obtain ⟨t1, t2⟩ := ih.of (itemsOk ht hh rfl)
    obtain ⟨t3, t4⟩ := ih'.of t1
    exact ⟨t3, List.forall_mem_cons.2 ⟨t2, t4⟩⟩
  | case h h1 h2 h3 ih ih' =>
    intro ht hh
    obtain ⟨t1, t2, -⟩ := ih.of ((itemsOk ht hh rfl).tk h)
    obtain ⟨t3, t4⟩ := ih'.of (t1.tk h2)
    exact ⟨t3, formed (by simpa [WellFormed] using t2.proper) (by kids; exact ⟨t2.formed, t4⟩)⟩
  | default h h1 h2 ih =>
    intro ht hh
    obtain ⟨t3, t4⟩ := ih.of (((itemsOk ht hh rfl).tk h).tk h1)
    exact ⟨t3, formed nofun (by kids; exact t4)⟩
  | caseBodyEnd h => exact fun ht hh => ⟨itemsOk ht hh rfl, nofun⟩
  | caseBodyMore h h1 ih ih' =>
    intro ht hh
    obtain ⟨t1, t2⟩ := ih.of (itemsOk ht hh rfl)
    obtain ⟨t3, t4⟩ := ih'.of t1
    exact ⟨t3, List.forall_mem_cons.2 ⟨t2, t4⟩⟩
  | labeled h h1 h2 ih =>
    intro ht hh
    obtain ⟨t1, t2⟩ := (itemsOk ht hh rfl).wd h
    obtain ⟨t3, t4⟩ := ih.of (t2.tk h1)
    exact ⟨t3, formed (t1.word rfl) (by kids; exact t4)⟩
  | functionStmt h h1 ih =>
    intro ht hh
    obtain ⟨t1, t2, t3⟩ := ih.of ((itemsOk ht hh rfl).tk h)
    exact ⟨t1, formed t3 (by kids; exact t2)⟩
  | classStmt h h1 ih =>
    intro ht hh
    obtain ⟨t1, t2, t3⟩ := ih.of ((itemsOk ht hh rfl).tk h)
    exact ⟨t1, formed t3 (by kids; exact t2)⟩
  | importBare h h1 hw =>
    intro ht hh
    obtain ⟨t1, t2⟩ := ((itemsOk ht hh rfl).tk h).wd h1
    exact ⟨t2, formed ⟨.none, nofun, unquoted_ok (t1.string rfl)⟩ (by kids)⟩
  | importFrom h h1 h2 h3 hw =>
    intro ht hh
    obtain ⟨t1, t2, t3⟩ := importHead_ok h1 ((itemsOk ht hh rfl).tk h)
    obtain ⟨t4, t5⟩ := (t1.wd h2).2.wd h3
    exact ⟨t5, formed ⟨t3, t2, unquoted_ok (t4.string rfl)⟩ (by kids)⟩
  | declarator h h' ih =>
    intro ht hh
    obtain ⟨t1, t2, t3⟩ := ih.of (itemsOk ht hh rfl)
    exact ⟨t1, formed ⟨t3, nofun⟩ (by kids; exact t2), nofun⟩
  | declaratorInit h h1 h2 ih ih' =>
    intro ht hh
    obtain ⟨t1, t2, t3⟩ := ih.of (itemsOk ht hh rfl)
    obtain ⟨t4, t5, -⟩ := ih'.of (t1.tk h1)
    refine ⟨t4, formed ⟨t3, by simpa using t5.proper⟩ (by kids; exact ⟨t2, t5.formed⟩), fun _ => ?_⟩
    cases h2
    assumption
  | declaratorsLast h h' ih =>
    intro ht hh
    obtain ⟨t1, t2, t3⟩ := ih.of (itemsOk ht hh rfl)
    exact ⟨t1, by simpa using t2, by simp, by simpa using t3⟩
  | @declaratorsMore i m n j d ds h h1 h2 ih ih' =>
    intro ht hh
    obtain ⟨t1, t2, -⟩ := ih.of (itemsOk ht hh rfl)
    obtain ⟨t3, t4, t5, t6⟩ := ih'.of (t1.tk h1)
    refine ⟨t3, List.forall_mem_cons.2 ⟨t2, t4⟩, by simp, ?_⟩
    cases ds with
    | nil => exact absurd rfl t5
    | cons x ds =>
      rw [List.getLast?_cons_cons]
      exact t6
  | programEnd => exact fun ht hh => ⟨nofun, nofun⟩
  | programMore h h1 ih ih' =>
    intro ht hh
    obtain ⟨t1, t2⟩ := ih.of (itemsOk ht hh rfl)
    obtain ⟨t3, t4⟩ := ih'.of t1
    exact ⟨t3, List.forall_mem_cons.2 ⟨t2, t4⟩⟩

/-- The statements of a program are well formed. -/
theorem program_formed {src : Bytes} {i : List Item} {ss : List Stmt} (h1 : Spells src i) (h2 : G i (.program ss) []) :
    ∀ s ∈ ss, Formed (.stmt s) := ((claim h2).of (spells_texts h1)).2

end
end Ratel
