import Verif.Props.RoundTrip
import Verif.Lemmas.SafeB
import Verif.Lemmas.Fuel
import Verif.Props.ParserExamples
/-! C21: cases that meet the hypotheses, and the errors of the generator that they exclude. -/
namespace Ratel
open Spec

local instance roundTripAlpha : Unicode := ⟨fun _ => true⟩

/-- The source is accepted, and all nodes of its tree are `Safe` (and no empty statements, if `strict`). -/
def safeSource (fuel : Nat) (minify strict : Bool) (src : Bytes) : Bool :=
  match parse fuel src with
  | .ok (.ok m) => (m.all fun s => allB (safeB minify) fuel (.stmt s)) &&
      (!strict || m.all fun s => allB (fun n => match n with | .stmt (.empty _) => false | _ => true) fuel (.stmt s))
  | _ => false

theorem of_safeSource {fuel : Nat} {minify strict : Bool} {src : Bytes} (h : safeSource fuel minify strict src = true) :
    ∃ m, parse fuel src = .ok (.ok m) ∧ (∀ n ∈ moduleNodes m, Safe minify n) ∧
      (strict = true → ∀ n ∈ moduleNodes m, NotEmpty n) := by
  unfold safeSource at h
  split at h
  · rename_i m hm
    rw [Bool.and_eq_true] at h
    refine ⟨m, hm, of_allB_module (fun n hn => of_safeB hn) h.1, fun hs => ?_⟩
    have h2 := h.2
    rw [hs] at h2
    refine of_allB_module (f := fun n => match n with | .stmt (.empty _) => false | _ => true) (fun n hn => ?_) (by simpa using h2)
    match n with
    | .stmt (.empty _) => simp at hn
    | .stmt (.debugger _) | .stmt (.expr ..) | .stmt (.decl ..) | .stmt (.ret ..) | .stmt (.brk ..) | .stmt (.cont ..)
    | .stmt (.throw ..) | .stmt (.ifS ..) | .stmt (.whileS ..) | .stmt (.doS ..) | .stmt (.forS ..) | .stmt (.forIn ..)
    | .stmt (.forOf ..) | .stmt (.tryS ..) | .stmt (.block ..) | .stmt (.labeled ..) | .stmt (.function ..) | .stmt (.class ..)
    | .stmt (.switch ..) | .stmt (.import ..) => trivial
    | .expr _ | .key _ | .prop _ | .pat _ | .func _ | .cls _ | .member _ | .block _ | .declarator _ | .forInit _
    | .case _ | .catch _ | .switchBody _ => trivial
  · cases h

/-- A source with most statements and expressions. -/
def printableSource : Bytes := bs!"import d, {x as y} from 'mod'
a.b[c](1, 0b1, ...e).f += `p${q}r${s}t` /* c */
  let [f,, g = 2] = [,h], {i, j: k} = {l, 'm': n, [o]: p, q() {}}
  lbl: for (var u of v) break lbl
  class A extends B { constructor(z, ...w) { x = new.target } static get y() {} k = /re/g; }
  function gen(o = 1) { try { throw -1 } catch (e) { i++ } return (x, y) => x ? y : this }
  switch (t) { case 1: tag`x`; default: }
  if (a - (-b)) { a = (b + c) * d - e } else if (typeof a == 'x') return; else { do { continue } while (a) }
  for (i = 0; i < 5; i++) { (a, b); ({}); (function () {}) }
  for (i in c) while (1) a ? b : c
  var f = function g() {}, h = class { set v(x) {} [a]() {} static 1() {} }, e = a / b / (c / d), n = -1 + ~b
  x = y ? (a, b = 1) => { return 5 } : !/re=/g
  var z = (a.b).c = (a ** b) ** c && d || 'str' in {a: 1} >>> 0x1f"

example : ∃ m x, parse 300 printableSource = .ok (.ok m) ∧ (∀ n ∈ moduleNodes m, Safe true n) ∧ (∀ n ∈ moduleNodes m, NotEmpty n) ∧
    codegen m true = .ok x := by
  obtain ⟨m, h1, h2, h3⟩ := of_safeSource (fuel := 300) (minify := true) (strict := true) (src := printableSource) (by decide +kernel)
  obtain ⟨x, hx⟩ := C22_accepted_no_panic h1 true
  exact ⟨m, x, h1, h2, h3 rfl, hx⟩

example : ∃ m x, parse 300 printableSource = .ok (.ok m) ∧ (∀ n ∈ moduleNodes m, Safe false n) ∧ (∀ n ∈ moduleNodes m, NotEmpty n) ∧
    codegen m false = .ok x := by
  obtain ⟨m, h1, h2, h3⟩ := of_safeSource (fuel := 300) (minify := false) (strict := true) (src := printableSource) (by decide +kernel)
  obtain ⟨x, hx⟩ := C22_accepted_no_panic h1 false
  exact ⟨m, x, h1, h2, h3 rfl, hx⟩

/-- C44: positions and empty statements that differ. -/
example : bareStmts [.expr ⟨0, 5⟩ (.this ⟨0, 4⟩)] = bareStmts [.expr ⟨7, 12⟩ (.this ⟨7, 11⟩)] := by
  simp [bareStmts, bareStmt, bareExpr]
example : tidyStmts [.empty ⟨0, 1⟩, .block ⟨1, 9⟩ [.empty ⟨2, 3⟩, .throw ⟨3, 7⟩ (.this ⟨5, 6⟩)]] =
    tidyStmts [.block ⟨0, 4⟩ [.throw ⟨1, 3⟩ (.this ⟨2, 3⟩)], .empty ⟨0, 1⟩] := by
  simp [tidyStmts, tidyStmt, tidyExpr, isEmptyStmt]

/-! ### Where C21 is false -/

/-- The generated code of the accepted source is not read back. -/
def Misprinted (minify : Bool) (src : Bytes) : Prop :=
  ∃ fuel m x, parse fuel src = .ok (.ok m) ∧ codegen m minify = .ok x ∧ ¬ Accepts parse x (tidyStmts m)

/-- Number of children, generator flag and sign of each node, in preorder. -/
def outline : Nat → Node → List Nat
  | 0, _ => []
  | n + 1, x => (match x with | .func (.mk _ true _ _) => 1 | .expr (.prefix _ .Addition _) => 2 | _ => 0) :: x.children.length :: x.children.flatMap (outline n)

def misprints (fuel : Nat) (minify : Bool) (src : Bytes) : Bool :=
  match parse fuel src with
  | .ok (.ok m) => match codegen m minify with
    | .ok x => match parse fuel x with
      | .ok (.ok m') => (bareStmts m').flatMap (fun s => outline fuel (.stmt s)) != (tidyStmts m).flatMap (fun s => outline fuel (.stmt s))
      | .ok (.error _) => true
      | _ => false
    | _ => false
  | _ => false

theorem of_misprints {fuel : Nat} {minify : Bool} {src : Bytes} (h : misprints fuel minify src = true) : Misprinted minify src := by
  unfold misprints at h
  split at h
  · rename_i m hm
    split at h
    · rename_i x hx
      refine ⟨fuel, m, x, hm, hx, fun ⟨N, m', hb, hp⟩ => ?_⟩
      have hp := hp (max N fuel) (Nat.le_max_left ..)
      split at h
      · rename_i m'' hm''
        rw [parse_fuel (Nat.le_max_right N fuel) x (by rw [hm'']; nofun), hm''] at hp
        cases hp
        rw [hb] at h
        simp at h
      · rename_i e he
        rw [parse_fuel (Nat.le_max_right N fuel) x (by rw [he]; nofun), he] at hp
        cases hp
      · cases h
    · cases h
  · cases h

/-- C21 is false without `Safe`: sources whose code, pretty or minified, is not read back. -/
theorem C21_misprints (minify : Bool) : ∀ src ∈ [
    bs!"(a, b)()", bs!"(a + b)()", bs!"(x => x)()", bs!"(a, b)`x`", bs!"(a ? b : c) ? d : e", bs!"f((a, b))", bs!"[(a, b)]", bs!"f(...(a, b))",
    bs!"x = {a: (b, c)}", bs!"let a = (b, c)", bs!"function f(a = (b, c)) {}", bs!"class A extends (b, c) {}",
    bs!"a * (x => x) + c", bs!"(a * b) ** c", bs!"-(a ** b)", bs!"-(a + b)", bs!"- -a", bs!"+ ++a",
    bs!"(10).foo", bs!"x = a => ({})", bs!"(function () {})()", bs!"({}).x", bs!"(class {}).x",
    bs!"function* f() {}", bs!"if (a); else b", bs!"while (a);", bs!"for (;;);", bs!"a:;",
    bs!"for ((a, b) in c) d", bs!"try {} finally {}", bs!"import a from \"it's\"", bs!"import(a).b.c"],
    Misprinted minify src := by
  intro src hs
  refine of_misprints (fuel := 60) ?_
  revert src
  cases minify <;> decide +kernel

/-- C21 is false without `Safe` for minified code. -/
theorem C21_misprints_minified : ∀ src ∈ [bs!"a + (+b * c)", bs!"a - (-b * c)", bs!"a - --b * c", bs!"a / /re/", bs!"debugger; a"], Misprinted true src := by
  intro src hs
  refine of_misprints (fuel := 60) ?_
  revert src
  decide +kernel

end Ratel
