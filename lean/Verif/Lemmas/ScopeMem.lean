import Verif.Spec.ScopeMem
/-! The scopes in the arena are the tree of scopes. -/
namespace Ratel
open Spec

mutual

theorem Spec.ScopeAt.le {objs : List ScopeObj} : ∀ {p : Option Nat} {i j : Nat} {s : Scope}, ScopeAt objs p i j s → i < j
  | _, _, _, _, .mk _ hc => Nat.lt_of_succ_le hc.le

theorem Spec.ScopesAt.le {objs : List ScopeObj} : ∀ {p i j : Nat} {ps : List Nat} {ss : List Scope}, ScopesAt objs p i j ps ss → i ≤ j
  | _, _, _, _, _, .nil => Nat.le_refl _
  | _, _, _, _, _, .cons h h' => Nat.le_trans (Nat.le_of_lt h.le) h'.le

end

mutual

/-- Other allocations do not matter. -/
theorem Spec.ScopeAt.frame {objs objs' : List ScopeObj} : ∀ {p : Option Nat} {i j : Nat} {s : Scope}, ScopeAt objs p i j s →
    (∀ k, i ≤ k → k < j → objs'[k]? = objs[k]?) → ScopeAt objs' p i j s
  | _, i, j, _, .mk h hc, he =>
    .mk (by rw [he i (Nat.le_refl _) (Nat.lt_of_succ_le hc.le)]; exact h) (hc.frame fun k h1 h2 => he k (Nat.le_of_succ_le h1) h2)

theorem Spec.ScopesAt.frame {objs objs' : List ScopeObj} : ∀ {p i j : Nat} {ps : List Nat} {ss : List Scope}, ScopesAt objs p i j ps ss →
    (∀ k, i ≤ k → k < j → objs'[k]? = objs[k]?) → ScopesAt objs' p i j ps ss
  | _, _, _, _, _, .nil, _ => .nil
  | _, _, _, _, _, .cons h h', he =>
    .cons (h.frame fun k h1 h2 => he k h1 (Nat.lt_of_lt_of_le h2 h'.le)) (h'.frame fun k h1 h2 => he k (Nat.le_trans (Nat.le_of_lt h.le) h1) h2)

end

theorem Spec.ScopesAt.snoc {objs : List ScopeObj} {s : Scope} {n : Nat} : ∀ {p i j : Nat} {ps : List Nat} {ss : List Scope}, ScopesAt objs p i j ps ss →
    ScopeAt objs (some p) j n s → ScopesAt objs p i n (ps ++ [j]) (ss ++ [s])
  | _, _, _, _, _, .nil, h => .cons h .nil
  | _, _, _, _, _, .cons h1 h2, h => .cons h1 (h2.snoc h)

/-- The open scopes, innermost first: the current one was allocated as number `i`, and reaches up to `n`. -/
inductive Opened (objs : List ScopeObj) : Nat → Nat → Scope → List Scope → Prop where
  | root {i n : Nat} {s : Scope} (h0 : i = 0) (h : ScopeAt objs none i n s) : Opened objs i n s []
  | inner {i n j : Nat} {s p : Scope} {ps : List Scope} (h : ScopeAt objs (some j) i n s) (h' : Opened objs j i p ps) :
      Opened objs i n s (p :: ps)

theorem Opened.lt {objs : List ScopeObj} {i n : Nat} {s : Scope} {ps : List Scope} (h : Opened objs i n s ps) : i < n := by
  cases h with
  | root _ h => exact h.le
  | inner h _ => exact h.le

theorem Opened.frame {objs objs' : List ScopeObj} {i n : Nat} {s : Scope} {ps : List Scope} (h : Opened objs i n s ps)
    (he : ∀ k, k < n → objs'[k]? = objs[k]?) : Opened objs' i n s ps := by
  induction h with
  | root h0 h => exact .root h0 (h.frame fun k _ h2 => he k h2)
  | inner h h' ih => exact .inner (h.frame fun k _ h2 => he k h2) (ih fun k hk => he k (Nat.lt_trans hk h.le))

/-- A change of the current scope. -/
theorem Opened.update {objs : List ScopeObj} {i n : Nat} {s s' : Scope} {ps : List Scope} {f : ScopeObj → ScopeObj}
    (h : Opened objs i n s ps)
    (hf : ∀ p objs', objs' = objs.modify i f → ScopeAt objs p i n s → ScopeAt objs' p i n s') : Opened (objs.modify i f) i n s' ps := by
  cases h with
  | root h0 h => exact .root h0 (hf _ _ rfl h)
  | inner h h' =>
    refine .inner (hf _ _ rfl h) (h'.frame fun k hk => ?_)
    simp [Nat.ne_of_gt hk]

theorem Spec.ScopeAt.modify {objs : List ScopeObj} {par : Option Nat} {i n : Nat} {k k' : ScopeKind} {t t' : Bool} {u d u' d' : List Bytes} {c : List Scope}
    {f : ScopeObj → ScopeObj} (h : ScopeAt objs par i n (.mk k t u d c))
    (hf : ∀ ps, f ⟨k, false, t, u, d, par, ps⟩ = ⟨k', false, t', u', d', par, ps⟩) : ScopeAt (objs.modify i f) par i n (.mk k' t' u' d' c) := by
  cases h with
  | mk h hc =>
    refine .mk (ptrs := _) ?_ (hc.frame fun m h1 _ => ?_)
    · simp [h, hf]
    · simp [Nat.ne_of_lt h1]

/-- The arena and the analyzer without pointers. -/
def Mirrors (a : Analyzer) (b : ScopeArena) : Prop := Opened b.scopes b.current b.scopes.length a.current a.parents

theorem mirrors_new : Mirrors ⟨.new .Function, []⟩ .new := .root rfl (.mk rfl .nil)

theorem Mirrors.step {a a' : Analyzer} {b : ScopeArena} {e : Event} (h : Mirrors a b) (ha : a.step e = .ok a') :
    ∃ b', b.step e = .ok b' ∧ Mirrors a' b' := by
  obtain ⟨cur, parents⟩ := a
  obtain ⟨k, t, u, d, c⟩ := cur
  obtain ⟨objs, i⟩ := b
  have hl : i < objs.length := Opened.lt h
  have upd : ∀ (f : ScopeObj → ScopeObj) {t' : Bool} {u' d' : List Bytes},
      (∀ p ps, f ⟨k, false, t, u, d, p, ps⟩ = ⟨k, false, t', u', d', p, ps⟩) →
      Mirrors ⟨.mk k t' u' d' c, parents⟩ ((ScopeArena.mk objs i).update f) := by
    intro f t' u' d' hf
    unfold Mirrors ScopeArena.update
    simp only [List.length_modify]
    exact Opened.update h fun p objs' he hs => he ▸ hs.modify (hf p)
  have same : ∀ {e : Event}, (Analyzer.mk (.mk k t u d c) parents).step e = .ok ⟨.mk k t u d c, parents⟩ →
      (ScopeArena.mk objs i).step e = .ok ⟨objs, i⟩ → a' = ⟨.mk k t u d c, parents⟩ →
      ∃ b', (ScopeArena.mk objs i).step e = .ok b' ∧ Mirrors a' b' := fun _ hb he => ⟨_, hb, he ▸ h⟩
  cases e with
  | enter k' =>
    cases ha
    refine ⟨_, rfl, ?_⟩
    unfold Mirrors
    simp only [List.length_append, List.length_singleton]
    refine .inner (.mk (ptrs := []) (by simp [ScopeObj.new]) .nil) (Opened.frame h fun k hk => ?_)
    exact List.getElem?_append_left hk
  | leave =>
    cases parents with
    | nil => cases ha
    | cons p ps =>
      cases ha
      unfold Mirrors at h
      cases h with
      | @inner _ _ j _ _ _ hs h' =>
        have hs' := hs
        have hj : j < i := h'.lt
        cases hs with
        | mk hi hc =>
          simp only [ScopeArena.step, hi, ScopeArena.update]
          refine ⟨_, rfl, ?_⟩
          unfold Mirrors
          simp only [List.length_modify]
          have far : ∀ k, k ≠ j → (objs.modify j fun o => { o with children := o.children ++ [i] })[k]? = objs[k]? := by
            intro k hk
            simp [Ne.symm hk]
          have key : ∀ {par}, ScopeAt objs par j i p →
              ScopeAt (objs.modify j fun o => { o with children := o.children ++ [i] }) par j objs.length (Scope.addChild (.mk k t u d c) p) := by
            intro par hp
            cases hp with
            | mk hp hcs =>
              refine .mk (ptrs := _) ?_ ((hcs.frame fun k h1 _ => far k (Nat.ne_of_gt h1)).snoc
                (hs'.frame fun k h1 _ => far k (Nat.ne_of_gt (Nat.lt_of_lt_of_le hj h1))))
              simp [hp]
          cases h' with
          | root h0 hp => exact .root h0 (key hp)
          | inner hp h2 => exact .inner (key hp) (h2.frame fun k hk => far k (Nat.ne_of_lt hk))
  | use n =>
    cases ha
    exact ⟨_, rfl, upd _ fun _ _ => rfl⟩
  | declare n =>
    cases ha
    exact ⟨_, rfl, upd _ fun _ _ => rfl⟩
  | onExpr x n =>
    cases x with
    | this =>
      cases ha
      exact ⟨_, rfl, upd _ fun _ _ => rfl⟩
    | _ => cases ha; exact ⟨_, rfl, h⟩
  | panic => cases ha
  | _ => cases ha; exact ⟨_, rfl, h⟩

theorem Mirrors.run {es : List Event} {a a' : Analyzer} {b : ScopeArena} (h : Mirrors a b) (ha : a.run es = .ok a') :
    ∃ b', b.run es = .ok b' ∧ Mirrors a' b' := by
  induction es generalizing a b with
  | nil => cases ha; exact ⟨_, rfl, h⟩
  | cons e es ih =>
    rw [Analyzer.run, Out.bind_eq_ok] at ha
    obtain ⟨a1, h1, h2⟩ := ha
    obtain ⟨b1, h3, h4⟩ := h.step h1
    obtain ⟨b', h5, h6⟩ := ih h4 h2
    exact ⟨b', by rw [ScopeArena.run, h3]; exact h5, h6⟩

end Ratel
