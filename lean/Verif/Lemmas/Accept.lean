import Verif.Lemmas.AcceptBase
/-! Every procedure of the parser, run without errors, returns good nodes. -/
namespace Ratel
open Spec

set_option linter.unusedSectionVars false
variable [Unicode]

variable {src : Bytes}

macro "full" : tactic => `(tactic| refine ⟨⟨?_, ?_, ?_, ?_, ?_⟩, ?_, ?_⟩)

/-! ### Names -/

theorem At.ident {l l' : Lex} (h : At src l) (ht : named l.token = true) (hn : Nxt src l l') :
    IdentRead src l ⟨⟨l.tokenStart, l.index⟩, l.tokenAsStr⟩ l' :=
  ⟨h.nonempty ht, h.text, Nat.le_refl _, h.start, Nat.le_refl _, hn.le⟩

instance : Sp src identifier (IdentRead src) := ⟨fun l hl => by
  unfold identifier
  walk
  exact hl.ident (by simp_all; rfl) (by assumption)⟩

instance {k} : Sp src (parseName k) fun l nm l' => (∀ i ∈ nameIdents nm, IdentRead src l i l') ∧
    (match k with | .empty => nm = .empty | .optional => Name.isOptional nm = true | .mandatory => Name.isMandatory nm = true) := ⟨fun l hl => by
  unfold parseName
  walk
  all_goals simp only [nameIdents, Name.isOptional, Name.isMandatory, List.not_mem_nil, Option.toList, List.mem_singleton]
  · simp
  · exact ⟨fun i hi => hi ▸ hl.ident (by simp_all; rfl) (by assumption), trivial⟩
  · simp
  · exact ⟨fun i hi => hi ▸ hl.ident (by simp_all; rfl) (by assumption), trivial⟩⟩

instance : Sp src expectSemicolon fun _ _ _ => True := ⟨fun l hl => by
  unfold expectSemicolon
  walk⟩

theorem patternIdentifier_ok {l : Lex} (hl : At src l) (ht : l.token = .Identifier) : W patternIdentifier l (PatRead src l) := by
  unfold patternIdentifier
  walk
  obtain ⟨_, _, _, _, _, _⟩ := hl.ident (by simp [ht]; rfl) (by assumption)
  open_all
  refine ⟨?_, rfl⟩
  full
  · good <;> grind
  all_goals grind


/-! ### Lists -/

section
variable {α : Type} {f : α → Node} {g : α → Loc} {p : α → Prop} {c : Bool}

theorem Reads.nil {l l' : Lex} : Reads src c f g p l [] l' := by constructor <;> simp

theorem Reads.single {l l' : Lex} {x : α} (h : Read src (f x) (g x) l l') (hp : p x) : Reads src c f g p l [x] l' := by
  obtain ⟨h1, h2, h3, h4, h5⟩ := h
  constructor <;> simp [*]

theorem Reads.adv {l l1 l2 : Lex} {xs : List α} (h : Reads src c f g p l xs l1) (h1 : l1.tokenStart ≤ l2.tokenStart)
    (h2 : l1.index ≤ l2.index) : Reads src c f g p l xs l2 :=
  ⟨h.good, h.lo, h.ord, fun x hx => Nat.le_trans (h.mid x hx) h1, fun x hx => Nat.le_trans (h.hi x hx) h2, h.order, h.apart, h.extra⟩

theorem Reads.snoc {l l1 l2 l3 : Lex} {xs : List α} {x : α} (h : Reads src c f g p l xs l1)
    (hc : c = true → l1.index ≤ l2.tokenStart) (hx : Read src (f x) (g x) l2 l3) (hp : p x) (h0 : l.tokenStart ≤ l2.tokenStart)
    (h1 : l1.tokenStart ≤ l2.tokenStart) (h2 : l1.index ≤ l3.index)
    (h3 : l2.tokenStart ≤ l3.tokenStart) : Reads src c f g p l (xs ++ [x]) l3 := by
  obtain ⟨a1, a2, a3, a4, a5, a6, a8, a7⟩ := h
  obtain ⟨b1, b2, b3, b4, b5⟩ := hx
  constructor
  case order =>
    rw [List.pairwise_append]
    simp
    grind
  case apart =>
    intro hc'
    rw [List.pairwise_append]
    simp
    grind
  all_goals grind

theorem rawBlock_ok {n : Nat} {item : P α} [Known src item]
    (hi : ∀ l, At src l → W item l fun x l' => Read src (f x) (g x) l l' ∧ p x) {l : Lex} (hl : At src l) :
    W (rawBlock n item) l fun xs l' => Reads src false f g p l xs l' ∧ (l'.token = .BraceClose ∨ l'.token = .EndOfProgram) := by
  have : Sp src item fun l x l' => Read src (f x) (g x) l l' ∧ p x := ⟨hi⟩
  unfold rawBlock
  walk
  · exact ⟨.nil, .inl (by assumption)⟩
  · rename_i hx
    refine W.loop (src := src) (fun acc m => At src m ∧ Adv src l m ∧ Reads src false f g p l acc m) (fun acc m hm => ?_)
      (by mono) ⟨by assumption, by assumption, .single hx.1 hx.2⟩
    obtain ⟨h1, h2, h3⟩ := hm
    walk
    · rename_i h4 h5 h6
      exact ⟨h4, ⟨Nat.le_trans h2.1 h5.1, Nat.le_trans h2.2 h5.2⟩,
        h3.snoc (by simp) h6.1 h6.2 h2.1 (Nat.le_refl _) h5.2 h5.1⟩
    · rename_i hk
      exact ⟨h3, by simpa [Classical.or_iff_not_imp_left] using hk⟩

end

/-- A block in braces. -/
structure BlockRead {α : Type} (src : Bytes) (f : α → Node) (g : α → Loc) (p : α → Prop) (l : Lex) (r : Loc × List α) (l' : Lex) : Prop where
  good : ∀ x ∈ r.2, (f x).Forall (Good src)
  lo : l.tokenStart = r.1.start
  first : l.index ≤ r.1.stop
  stop : r.1.stop ≤ l'.tokenStart
  start : ∀ x ∈ r.2, r.1.start ≤ (g x).start
  ord : ∀ x ∈ r.2, (g x).start ≤ (g x).stop
  hi : ∀ x ∈ r.2, (g x).stop ≤ r.1.stop
  order : r.2.Pairwise fun a b => (g a).start ≤ (g b).start
  extra : ∀ x ∈ r.2, p x
  opens : Opens src r.1.start bs!"{"
  closes : Closes src r.1.stop bs!"}" ∨ Ended src r.1.stop
  inside : ∀ x ∈ r.2, l.index ≤ (g x).start

section
variable {α : Type} {f : α → Node} {g : α → Loc} {p : α → Prop} {c : Bool}

theorem Reads.block {l l1 l2 l3 : Lex} {xs : List α} (h : Reads src false f g p l1 xs l2) (h0 : At src l) (h1 : Nxt src l l1)
    (h01 : At src l1) (h02 : At src l2) (h2 : Adv src l1 l2) (h3 : Nxt src l2 l3) (ht : l.token = .BraceOpen)
    (ht2 : l2.token = .BraceClose ∨ l2.token = .EndOfProgram) : BlockRead src f g p l (⟨l.tokenStart, l2.index⟩, xs) l3 := by
  open_all
  constructor
  all_goals grind

theorem block_ok {n : Nat} {item : P α} [Known src item] (hi : ∀ l, At src l → W item l fun x l' => Read src (f x) (g x) l l' ∧ p x) :
    Sp src (block n item) (BlockRead src f g p) := ⟨fun l hl => by
  have : Sp src (rawBlock n item) (fun l xs l' => Reads src false f g p l xs l' ∧ (l'.token = .BraceClose ∨ l'.token = .EndOfProgram)) :=
    ⟨fun l hl => rawBlock_ok hi hl⟩
  unfold block
  walk
  rename_i h _ h3
  exact h.1.block hl (by assumption) (by assumption) (by assumption) (by assumption) h3 (by assumption) h.2⟩

theorem uncheckedBlock_ok {n : Nat} {item : P α} [Known src item] (hi : ∀ l, At src l → W item l fun x l' => Read src (f x) (g x) l l' ∧ p x) :
    Sp src (uncheckedBlock n item) (fun l r l' => l.token = .BraceOpen → BlockRead src f g p l r l') := ⟨fun l hl => by
  have : Sp src (rawBlock n item) (fun l xs l' => Reads src false f g p l xs l' ∧ (l'.token = .BraceClose ∨ l'.token = .EndOfProgram)) :=
    ⟨fun l hl => rawBlock_ok hi hl⟩
  unfold uncheckedBlock
  walk
  rename_i h _ h3
  intro ht
  exact h.1.block hl (by assumption) (by assumption) (by assumption) (by assumption) h3 ht h.2⟩

theorem arrayElements_ok {n : Nat} {item : P α} [Known src item]
    (hi : ∀ l, At src l → W item l fun x l' => Read src (f x) (g x) l l' ∧ p x) {l : Lex} (hl : At src l) :
    W (arrayElements n item) l fun xs l' => Reads src true f g p l xs l' ∧ l'.token = .BracketClose := by
  have : Sp src item fun l x l' => Read src (f x) (g x) l l' ∧ p x := ⟨hi⟩
  unfold arrayElements
  walk
  · exact ⟨.nil, by assumption⟩
  · rename_i hx
    refine W.loop (src := src) (fun acc m => At src m ∧ Adv src l m ∧ Reads src true f g p l acc m) (fun acc m hm => ?_)
      (by mono) ⟨by assumption, by assumption, .single hx.1 hx.2⟩
    obtain ⟨h1, h2, h3⟩ := hm
    walk
    · rename_i h7 _ h4 h5 h6
      refine ⟨h4, ?_, h3.snoc (fun _ => ?_) h6.1 h6.2 ?_ ?_ ?_ ?_⟩
      · constructor <;> (open_all; omega)
      all_goals (open_all; omega)
    · exact ⟨h3, by assumption⟩
end

section
variable {n : Nat} {R : Rec} [Rec.Known src R] [hR : Rec.Ok src R]

instance : Sp src (block n R.stmt) (BlockRead src .stmt Stmt.loc fun _ => True) :=
  block_ok fun l hl => (Sp.is (src := src) l hl).weaken fun _ _ h => ⟨h.toRead, trivial⟩
instance : Sp src (uncheckedBlock n R.stmt) (fun l r l' => l.token = .BraceOpen → BlockRead src .stmt Stmt.loc (fun _ => True) l r l') :=
  uncheckedBlock_ok fun l hl => (Sp.is (src := src) l hl).weaken fun _ _ h => ⟨h.toRead, trivial⟩

instance : Sp src (stmtBlock n R) fun l b l' => BlockRead src .stmt Stmt.loc (fun _ => True) l (b.loc, b.body) l' := ⟨fun l hl => by
  unfold stmtBlock
  walk
  assumption⟩

instance : Sp src (propertyList n R) fun l ps l' => Reads src true .prop propLoc (fun _ => True) l ps l' ∧ l'.token = .BraceClose := ⟨fun l hl => by
  unfold propertyList
  walk
  · exact ⟨.nil, by assumption⟩
  · rename_i hx
    refine W.loop (src := src) (fun acc m => At src m ∧ Adv src l m ∧ Reads src true .prop propLoc (fun _ => True) l acc m) (fun acc m hm => ?_)
      (by mono) ⟨by assumption, by assumption, .single hx.toRead trivial⟩
    obtain ⟨h1, h2, h3⟩ := hm
    walk
    · exact ⟨h3, by assumption⟩
    · rename_i h _
      exact ⟨h3.adv (by open_all; omega) (by open_all; omega), by assumption⟩
    · rename_i h7 _ h4 h5 h6
      refine ⟨h4, ?_, h3.snoc (fun _ => ?_) h6.toRead trivial ?_ ?_ ?_ ?_⟩
      · constructor <;> (open_all; omega)
      all_goals (open_all; omega)⟩

instance : Sp src (callArguments n R) fun l es l' =>
    Reads src true .expr Expr.loc (fun e => (Node.expr e).isHole = false) l es l' ∧ l'.token = .ParenClose := ⟨fun l hl => by
  unfold callArguments
  walk
  · exact ⟨.nil, by assumption⟩
  · rename_i hx
    refine W.loop (src := src) (fun acc m => At src m ∧ Adv src l m ∧
      Reads src true .expr Expr.loc (fun e => (Node.expr e).isHole = false) l acc m) (fun acc m hm => ?_)
      (by mono) ⟨by assumption, by assumption, .single hx.toRead hx.hole⟩
    obtain ⟨h1, h2, h3⟩ := hm
    walk
    · exact ⟨h3, by assumption⟩
    · rename_i h _
      exact ⟨h3.adv (by open_all; omega) (by open_all; omega), by assumption⟩
    · rename_i h7 _ h4 h5 h6
      refine ⟨h4, ?_, h3.snoc (fun _ => ?_) h6.toRead h6.hole ?_ ?_ ?_ ?_⟩
      · constructor <;> (open_all; omega)
      all_goals (open_all; omega)⟩

end

end Ratel
