import Verif.Spec.Buffer
import Verif.Props.Accepted
/-! The code generators append what they are told, inside of their buffer (C62). -/
namespace Ratel
open Spec

variable {g : Growth}

/-- The buffer holds these bytes. -/
def Buf.Holds (b : Buf) (x : Bytes) : Prop := b.len = x.length ∧ ∃ t, b.cells = x.map some ++ t

theorem Buf.Holds.withCapacity {n : Nat} : (Buf.withCapacity g n).Holds [] := ⟨rfl, _, rfl⟩

theorem Buf.Holds.reserve {b : Buf} {x : Bytes} {n : Nat} (h : b.Holds x) :
    (b.reserve g n).Holds x ∧ x.length + n ≤ (b.reserve g n).cells.length := by
  obtain ⟨h1, t, h2⟩ := h
  unfold Buf.reserve
  split
  · exact ⟨⟨h1, t, h2⟩, by omega⟩
  · have := g.enough b.cells.length (b.len + n)
    refine ⟨⟨h1, List.replicate (g.grow b.cells.length (b.len + n) - b.len) none, ?_⟩, ?_⟩
    · simp [h1, h2]
    · simp [h1, h2] at *
      omega

theorem Buf.Holds.copyTo {b : Buf} {x s : Bytes} (h : ∃ t, b.cells = x.map some ++ t) (hn : x.length + s.length ≤ b.cells.length) :
    ∃ b', b.copyTo x.length s = .ok b' ∧ b'.len = b.len ∧ ∃ t, b'.cells = (x ++ s).map some ++ t := by
  obtain ⟨t, h⟩ := h
  refine ⟨_, if_pos hn, rfl, t.drop s.length, ?_⟩
  simp only [h, List.map_append, List.append_assoc]
  congr 1
  · simp
  · congr 1
    rw [List.drop_append]
    simp

theorem Buf.Holds.extend {b : Buf} {x : Bytes} (s : Bytes) (h : b.Holds x) : ∃ b', b.extendFromSlice g s = .ok b' ∧ b'.Holds (x ++ s) := by
  obtain ⟨⟨h1, h2⟩, h3⟩ := h.reserve (g := g) (n := s.length)
  unfold Buf.extendFromSlice Buf.setLen
  simp only [h.1]
  rw [if_pos h3]
  obtain ⟨b', h4, h5, h6⟩ := copyTo (b := { b.reserve g s.length with len := x.length + s.length }) h2 h3
  exact ⟨b', h4, by rw [h5]; simp, h6⟩

theorem Buf.Holds.push {b : Buf} {x : Bytes} (c : Byte) (h : b.Holds x) : ∃ b', b.push g c = .ok b' ∧ b'.Holds (x ++ [c]) := by
  unfold Buf.push
  have key : ∀ b : Buf, b.Holds x → x.length + 1 ≤ b.cells.length → ∃ b', ((b.copyTo b.len [c]).bind fun b => .ok { b with len := b.len + 1 }) = .ok b' ∧
      b'.Holds (x ++ [c]) := by
    intro b h hn
    obtain ⟨b', h4, h5, h6⟩ := copyTo (s := [c]) h.2 hn
    rw [h.1, h4]
    exact ⟨_, rfl, by simp [h5, h.1], h6⟩
  split
  · obtain ⟨h1, h3⟩ := h.reserve (g := g) (n := 1)
    exact key _ h1 h3
  · rename_i hn
    obtain ⟨t, ht⟩ := h.2
    have h1 := h.1
    exact key b h (by rw [ht] at hn ⊢; simp at hn ⊢; omega)

theorem Buf.Holds.bytes {b : Buf} {x : Bytes} (h : b.Holds x) : b.bytes = .ok x := by
  obtain ⟨h1, t, h2⟩ := h
  unfold Buf.bytes
  rw [if_pos (by simp [h1, h2])]
  rw [h1, h2, List.take_append_of_le_length (by simp), List.take_of_length_le (by simp)]
  clear h1 h2
  induction x with
  | nil => rfl
  | cons a x ih => simp only [List.map_cons, List.foldr_cons, ih]; rfl

theorem minCalls_holds (cs : List Call) : ∀ {b : Buf} {x : Bytes}, b.Holds x →
    ∃ b', minCalls g b cs = .ok b' ∧ b'.Holds (x ++ cs.flatMap minText) := by
  induction cs with
  | nil => intro b x h; exact ⟨b, rfl, by simpa using h⟩
  | cons c cs ih =>
    intro b x h
    have : ∃ b', minCall g b c = .ok b' ∧ b'.Holds (x ++ minText c) := by
      cases c with
      | writeByte c => exact h.push c
      | writeBytes s => exact h.extend s
      | _ => exact ⟨b, rfl, by simpa [minText] using h⟩
    obtain ⟨b1, h1, h2⟩ := this
    obtain ⟨b2, h3, h4⟩ := ih h2
    exact ⟨b2, by rw [minCalls, h1]; exact h3, by simpa using h4⟩

/-- C62: whatever is called, in whatever order, and however the buffer grows: the minifying generator writes only inside of its
buffer and returns exactly the concatenation of the texts it was given. -/
theorem C62_minify (g : Growth) (cs : List Call) : minGenerator g cs = .ok (cs.flatMap minText) := by
  obtain ⟨b, h1, h2⟩ := minCalls_holds (g := g) cs (.withCapacity (n := 128))
  rw [minGenerator, h1]
  exact h2.bytes

theorem indentation_holds : ∀ (n : Nat) {b : Buf} {x : Bytes}, b.Holds x →
    ∃ b', indentation g b n = .ok b' ∧ b'.Holds (x ++ List.replicate (4 * n) #b' ')
  | 0, b, x, h => ⟨b, rfl, by simpa using h⟩
  | n + 1, b, x, h => by
    obtain ⟨b1, h1, h2⟩ := h.extend (g := g) bs!"    "
    obtain ⟨b2, h3, h4⟩ := indentation_holds n h2
    refine ⟨b2, by rw [indentation, h1]; exact h3, ?_⟩
    have : List.replicate (4 * (n + 1)) #b' ' = bs!"    " ++ List.replicate (4 * n) #b' ' := by
      rw [show 4 * (n + 1) = 4 * n + 1 + 1 + 1 + 1 by omega]
      simp only [List.replicate_succ]
      rfl
    rw [this, ← List.append_assoc]
    exact h4

/-- What is printed, and the final depth; `none` if the depth gets negative. -/
def layOut : Nat → List Call → Option (Bytes × Nat)
  | d, [] => some ([], d)
  | d, .indent :: r => layOut (d + 1) r
  | 0, .dedent :: _ => none
  | d + 1, .dedent :: r => layOut d r
  | d, c :: r => (layOut d r).map fun (x, d') => (prettyText d c ++ x, d')

theorem prettyCalls_holds (cs : List Call) : ∀ {b : Buf} {d : Nat} {x : Bytes}, b.Holds x →
    match layOut d cs with
    | some (y, d') => ∃ b', prettyCalls g ⟨b, d⟩ cs = .ok ⟨b', d'⟩ ∧ b'.Holds (x ++ y)
    | none => prettyCalls g ⟨b, d⟩ cs = .panic := by
  induction cs with
  | nil => intro b d x h; exact ⟨b, rfl, by simpa using h⟩
  | cons c cs ih =>
    intro b d x h
    have go : (∃ b', prettyCall g ⟨b, d⟩ c = .ok ⟨b', d⟩ ∧ b'.Holds (x ++ prettyText d c)) →
        match (layOut d cs).map fun (y, d') => (prettyText d c ++ y, d') with
        | some (y, d') => ∃ b', prettyCalls g ⟨b, d⟩ (c :: cs) = .ok ⟨b', d'⟩ ∧ b'.Holds (x ++ y)
        | none => prettyCalls g ⟨b, d⟩ (c :: cs) = .panic := by
      rintro ⟨b1, h1, h2⟩
      have := ih (d := d) h2
      rw [prettyCalls, h1]
      cases hl : layOut d cs with
      | none => rw [hl] at this; exact this
      | some y =>
        rw [hl] at this
        simpa [Out.bind] using this
    cases c with
    | writeByte c =>
      obtain ⟨b1, h1, h2⟩ := h.push (g := g) c
      exact go ⟨b1, by rw [prettyCall, h1]; rfl, h2⟩
    | writePretty c =>
      obtain ⟨b1, h1, h2⟩ := h.push (g := g) c
      exact go ⟨b1, by rw [prettyCall, h1]; rfl, h2⟩
    | writeBytes s =>
      obtain ⟨b1, h1, h2⟩ := h.extend (g := g) s
      exact go ⟨b1, by rw [prettyCall, h1]; rfl, h2⟩
    | newLine =>
      obtain ⟨b1, h1, h2⟩ := h.push (g := g) #b'\n'
      obtain ⟨b2, h3, h4⟩ := indentation_holds (g := g) d h2
      refine go ⟨b2, by rw [prettyCall]; simp only [h1, Out.bind, h3], ?_⟩
      simpa [prettyText] using h4
    | indent => exact ih h
    | dedent =>
      cases d with
      | zero => rfl
      | succ d => exact ih h

theorem depthAfter_cons (c : Call) (cs : List Call) : depthAfter (c :: cs) = deeper c + depthAfter cs := by simp [depthAfter]

/-- What the specification says about the calls from depth `d` on. -/
def LaidOut (d : Nat) (cs : List Call) : Option (Bytes × Nat) → Prop
  | some (y, d') => y = (cs.mapIdx fun k c => prettyText ((d : Int) + depthAfter (cs.take k)).toNat c).flatten ∧
    (∀ k, 0 ≤ (d : Int) + depthAfter (cs.take k)) ∧ (d' : Int) = d + depthAfter cs
  | none => ∃ k, (d : Int) + depthAfter (cs.take k) < 0

theorem LaidOut.cons {d d' : Nat} {c : Call} {cs : List Call} {x : Option (Bytes × Nat)} (h : LaidOut d' cs x) (hd : (d' : Int) = d + deeper c) :
    LaidOut d (c :: cs) (x.map fun y => (prettyText d c ++ y.1, y.2)) := by
  have hcs : ∀ k, (d : Int) + depthAfter ((c :: cs).take (k + 1)) = d' + depthAfter (cs.take k) := by
    intro k
    rw [List.take_succ_cons, depthAfter_cons]
    omega
  cases x with
  | none =>
    obtain ⟨k, hk⟩ := h
    exact ⟨k + 1, by rw [hcs]; exact hk⟩
  | some y =>
    obtain ⟨h1, h2, h3⟩ := h
    refine ⟨?_, ?_, ?_⟩
    · simp only [List.mapIdx_cons, List.flatten_cons, h1, hcs]
      simp [depthAfter]
    · intro k
      cases k with
      | zero => simp [depthAfter]
      | succ k => rw [hcs]; exact h2 k
    · rw [depthAfter_cons]; omega

theorem layOut_spec (cs : List Call) : ∀ d : Nat, LaidOut d cs (layOut d cs) := by
  induction cs with
  | nil => intro d; simp [LaidOut, layOut, depthAfter]
  | cons c cs ih =>
    intro d
    have id : ∀ {x : Option (Bytes × Nat)}, x.map (fun y => (([] : Bytes) ++ y.1, y.2)) = x := by
      intro x; cases x <;> rfl
    cases c with
    | indent => have := (ih (d + 1)).cons (d := d) (c := .indent) (by simp [deeper]); rwa [show prettyText d .indent = [] from rfl, id] at this
    | dedent =>
      cases d with
      | zero => exact ⟨1, by simp [depthAfter, deeper]⟩
      | succ d => have := (ih d).cons (d := d + 1) (c := .dedent) (by simp [deeper]; omega); rwa [show prettyText (d + 1) .dedent = [] from rfl, id] at this
    | _ => exact (ih d).cons (by simp [deeper])

/-- C62: whatever is called, in whatever order, and however the buffer grows: the pretty printing generator writes only inside
of its buffer. If there are never more calls of `dedent` than of `indent` it returns exactly the texts it was given and a line
break with four blanks for each level for every `new_line`; otherwise it panics. -/
theorem C62_pretty (g : Growth) (cs : List Call) :
    ((∀ k, 0 ≤ depthAfter (cs.take k)) → prettyGenerator g cs = .ok (prettyCode cs)) ∧
    ((∃ k, depthAfter (cs.take k) < 0) → prettyGenerator g cs = .panic) := by
  have h1 := prettyCalls_holds (g := g) cs (d := 0) (.withCapacity (g := g) (n := 128))
  have h2 := layOut_spec cs 0
  unfold prettyGenerator
  cases hl : layOut 0 cs with
  | none =>
    rw [hl] at h1 h2
    obtain ⟨k, hk⟩ := h2
    rw [h1]
    exact ⟨fun h => absurd (h k) (by simp at hk; omega), fun _ => rfl⟩
  | some y =>
    rw [hl] at h1 h2
    obtain ⟨b, h3, h4⟩ := h1
    obtain ⟨h5, h6, -⟩ := h2
    simp only [Int.ofNat_zero, Int.zero_add] at h5 h6
    rw [h3]
    refine ⟨fun _ => ?_, fun ⟨k, hk⟩ => absurd (h6 k) (by omega)⟩
    simp only [Out.bind]
    rw [h4.bytes, prettyCode, ← h5]
    rfl

theorem runMin_writes {ps : List Piece} {cs : List Call} (h : Writes ps cs) : runMin ps = .ok (cs.flatMap minText) := by
  induction h with
  | nil => rfl
  | byte h ih | bytes h ih => simp [runMin, ih, minText]
  | pretty h ih | newLine h ih | indent h ih | dedent h ih => simpa [runMin, minText] using ih

theorem runPretty_writes {ps : List Piece} {cs : List Call} (h : Writes ps cs) : ∀ d,
    runPretty d ps = match layOut d cs with | some x => .ok x | none => .panic := by
  induction h with
  | nil => intro d; rfl
  | byte h ih | bytes h ih | pretty h ih | newLine h ih =>
    intro d
    simp only [runPretty, layOut, ih]
    cases layOut d _ <;> rfl
  | indent h ih => intro d; exact ih (d + 1)
  | dedent h ih =>
    intro d
    cases d with
    | zero => rfl
    | succ d => exact ih d

/-- C62: `codegen` on buffers. However the buffer grows, and whether single characters are written as bytes or as slices, the
calls that are made for a module give the text of `codegen`, and write only inside of the buffer. -/
theorem C62_codegen (g : Growth) {m : List Stmt} {cs : List Call} :
    (Writes (codeModuleMin m) cs → minGenerator g cs = codegen m true) ∧
    (Writes (codeModulePretty m) cs → prettyGenerator g cs = codegen m false) := by
  constructor
  · intro h
    rw [C62_minify]
    exact (runMin_writes h).symm
  · intro h
    have h1 := prettyCalls_holds (g := g) cs (d := 0) (.withCapacity (g := g) (n := 128))
    have h2 := runPretty_writes h 0
    unfold prettyGenerator codegen
    simp only [Bool.false_eq_true, if_false, h2]
    cases hl : layOut 0 cs with
    | none => rw [hl] at h1; rw [h1]; rfl
    | some y =>
      rw [hl] at h1
      obtain ⟨b, h3, h4⟩ := h1
      rw [h3]
      exact h4.bytes

theorem writes_min : ∀ {ps : List Piece} {x : Bytes}, runMin ps = .ok x → ∃ cs, Writes ps cs
  | [], _, _ => ⟨[], .nil⟩
  | p :: ps, x, h => by
    have : (∃ y, runMin ps = .ok y) ∧ p ≠ .panic := by
      cases p with
      | text s =>
        simp only [runMin, Out.bind_eq_ok] at h
        obtain ⟨y, h, -⟩ := h
        exact ⟨⟨y, h⟩, nofun⟩
      | panic => simp [runMin] at h
      | _ => exact ⟨⟨x, h⟩, nofun⟩
    obtain ⟨⟨y, h1⟩, h2⟩ := this
    obtain ⟨cs, hc⟩ := writes_min h1
    cases p with
    | text s => exact ⟨_, .bytes hc⟩
    | pretty b => exact ⟨_, .pretty hc⟩
    | newLine => exact ⟨_, .newLine hc⟩
    | indent => exact ⟨_, .indent hc⟩
    | dedent => exact ⟨_, .dedent hc⟩
    | panic => exact absurd rfl h2

theorem writes_pretty : ∀ {ps : List Piece} {d : Nat} {x : Bytes × Nat}, runPretty d ps = .ok x → ∃ cs, Writes ps cs
  | [], _, _, _ => ⟨[], .nil⟩
  | p :: ps, d, x, h => by
    have : (∃ d y, runPretty d ps = .ok y) ∧ p ≠ .panic := by
      cases p with
      | text s | pretty s | newLine =>
        simp only [runPretty, Out.bind_eq_ok] at h
        obtain ⟨y, h, -⟩ := h
        exact ⟨⟨d, y, h⟩, nofun⟩
      | panic => simp [runPretty] at h
      | indent => exact ⟨⟨_, x, h⟩, nofun⟩
      | dedent =>
        cases d with
        | zero => simp [runPretty] at h
        | succ d => exact ⟨⟨_, x, h⟩, nofun⟩
    obtain ⟨⟨d, y, h1⟩, h2⟩ := this
    obtain ⟨cs, hc⟩ := writes_pretty h1
    cases p with
    | text s => exact ⟨_, .bytes hc⟩
    | pretty b => exact ⟨_, .pretty hc⟩
    | newLine => exact ⟨_, .newLine hc⟩
    | indent => exact ⟨_, .indent hc⟩
    | dedent => exact ⟨_, .dedent hc⟩
    | panic => exact absurd rfl h2

/-- C62 for accepted sources: the generator makes such calls, and the buffer ends with the code. -/
theorem C62_accepted [Unicode] (g : Growth) {fuel : Nat} {src : Bytes} {m : List Stmt} (h : parse fuel src = .ok (.ok m)) :
    (∃ cs x, Writes (codeModuleMin m) cs ∧ codegen m true = .ok x ∧ minGenerator g cs = .ok x) ∧
    ∃ cs x, Writes (codeModulePretty m) cs ∧ codegen m false = .ok x ∧ prettyGenerator g cs = .ok x := by
  have key : ∀ minify, ∃ x, codegen m minify = .ok x := fun minify => C22_accepted_no_panic h minify
  constructor
  · obtain ⟨x, hx⟩ := key true
    obtain ⟨cs, hc⟩ := writes_min (x := x) (by simpa [codegen] using hx)
    exact ⟨cs, x, hc, hx, by rw [(C62_codegen g).1 hc, hx]⟩
  · obtain ⟨x, hx⟩ := key false
    have hx' := hx
    simp only [codegen, Bool.false_eq_true, if_false, Out.bind_eq_ok] at hx'
    obtain ⟨y, hy, -⟩ := hx'
    obtain ⟨cs, hc⟩ := writes_pretty hy
    exact ⟨cs, x, hc, hx, by rw [(C62_codegen g).2 hc, hx]⟩

/-- Non-vacuous: a buffer that grows byte by byte. -/
example : let g : Growth := ⟨fun _ n => n, fun _ _ => Nat.le_refl _⟩
    (⟨[some 1], 1⟩ : Buf).extendFromSlice g [2, 3] = .ok ⟨[some 1, some 2, some 3], 3⟩ := by decide +kernel

/-- Without `reserve` the buffer is too small. -/
example : ((⟨[some 1], 1⟩ : Buf).setLen 3) = .oob := by decide +kernel

/-- Non-vacuous: an indented block. -/
example : prettyCode [.writeByte #b'{', .indent, .newLine, .writeBytes bs!"a;", .dedent, .newLine, .writeByte #b'}'] = bs!"{\n    a;\n}" := by
  decide +kernel

end Ratel
