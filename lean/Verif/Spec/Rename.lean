import Verif.Spec.Grammar
import Verif.Spec.Lexemes
/-! Renaming: another name for every name of a program. -/
namespace Ratel.Spec
open Ratel

/-- The words that mean something to the grammar although they are names. -/
def contextual : List Bytes := [bs!"as", bs!"of", bs!"from", bs!"get", bs!"set", bs!"constructor", bs!"target"]

/-- `ρ` gives every name another one. Keywords stay what they are, and so do texts that are no words (a property can also be
named by a string or a number); the contextual words stay, and no other name becomes one of them. -/
structure Renaming (ρ : Bytes → Bytes) : Prop where
  keyword : ∀ w, wordToken w ≠ .Identifier → ρ w = w
  noWord : ∀ b r, b ∈ bs!"\"'." ∨ isDigit b → ρ (b :: r) = b :: r
  contextual : ∀ w c, c ∈ contextual → (ρ w = c ↔ w = c)

/-- The items of the renamed program: identifiers and the names behind dots are replaced, all else stays, also where a
semicolon may be inserted. -/
def renameItem (ρ : Bytes → Bytes) : Item → Item
  | .tok .Identifier w a => .tok .Identifier (ρ w) a
  | .tok .Accessor w a => .tok .Accessor (ρ w) a
  | x => x

/-! The tree of the renamed program: variables, labels, properties and the names of functions, classes and imports are
replaced. Literals and the texts of templates stay. -/

def renameIdent (ρ : Bytes → Bytes) (i : Ident) : Ident := ⟨i.loc, ρ i.name⟩

def renameName (ρ : Bytes → Bytes) : Name → Name
  | .empty => .empty
  | .optional n => .optional (n.map (renameIdent ρ))
  | .mandatory n => .mandatory (renameIdent ρ n)

def renameSpec (ρ : Bytes → Bytes) : ImportSpec → ImportSpec
  | .named x i l => .named x (renameIdent ρ i) (renameIdent ρ l)
  | .default x l => .default x (renameIdent ρ l)
  | .namespace x l => .namespace x (renameIdent ρ l)

mutual

def renameExpr (ρ : Bytes → Bytes) : Expr → Expr
  | .void x => .void x
  | .this x => .this x
  | .ident x n => .ident x (ρ n)
  | .lit x v => .lit x v
  | .seq x es => .seq x (renameExprs ρ es)
  | .array x es => .array x (renameExprs ρ es)
  | .member x o p => .member x (renameExpr ρ o) (renameIdent ρ p)
  | .cmember x o p => .cmember x (renameExpr ρ o) (renameExpr ρ p)
  | .metaProp x m p => .metaProp x (renameIdent ρ m) (renameIdent ρ p)
  | .call x c args => .call x (renameExpr ρ c) (renameExprs ρ args)
  | .binary x op l r => .binary x op (renameExpr ρ l) (renameExpr ρ r)
  | .prefix x op e => .prefix x op (renameExpr ρ e)
  | .postfix x op e => .postfix x op (renameExpr ρ e)
  | .cond x t c a => .cond x (renameExpr ρ t) (renameExpr ρ c) (renameExpr ρ a)
  | .template x es qs => .template x (renameExprs ρ es) qs
  | .tagged x t y es qs => .tagged x (renameExpr ρ t) y (renameExprs ρ es) qs
  | .spread x e => .spread x (renameExpr ρ e)
  | .arrowE x ps b => .arrowE x (renamePats ρ ps) (renameExpr ρ b)
  | .arrowB x ps b => .arrowB x (renamePats ρ ps) (renameBlock ρ b)
  | .object x ps => .object x (renameProps ρ ps)
  | .function x f => .function x (renameFunc ρ f)
  | .class x c => .class x (renameClass ρ c)

def renameExprs (ρ : Bytes → Bytes) : List Expr → List Expr
  | [] => []
  | e :: es => renameExpr ρ e :: renameExprs ρ es

def renameKey (ρ : Bytes → Bytes) : PropKey → PropKey
  | .computed x e => .computed x (renameExpr ρ e)
  | .literal x v => .literal x (ρ v)
  | .binary x v => .binary x v

def renameProp (ρ : Bytes → Bytes) : Property → Property
  | .shorthand x n => .shorthand x (ρ n)
  | .literal x k v => .literal x (renameKey ρ k) (renameExpr ρ v)
  | .method x k y f => .method x (renameKey ρ k) y (renameFunc ρ f)
  | .spread x e => .spread x (renameExpr ρ e)

def renameProps (ρ : Bytes → Bytes) : List Property → List Property
  | [] => []
  | p :: ps => renameProp ρ p :: renameProps ρ ps

def renamePat (ρ : Bytes → Bytes) : Pattern → Pattern
  | .void x => .void x
  | .ident x n => .ident x (ρ n)
  | .object x ps => .object x (renameProps ρ ps)
  | .array x es => .array x (renamePats ρ es)
  | .rest x a => .rest x (renameIdent ρ a)
  | .assign x l r => .assign x (renamePat ρ l) (renameExpr ρ r)

def renamePats (ρ : Bytes → Bytes) : List Pattern → List Pattern
  | [] => []
  | p :: ps => renamePat ρ p :: renamePats ρ ps

def renameFunc (ρ : Bytes → Bytes) : Func → Func
  | .mk n g ps b => .mk (renameName ρ n) g (renamePats ρ ps) (renameBlock ρ b)

def renameClass (ρ : Bytes → Bytes) : Class → Class
  | .mk n s x ms => .mk (renameName ρ n) (match s with | some e => some (renameExpr ρ e) | none => none) x (renameMembers ρ ms)

def renameMember (ρ : Bytes → Bytes) : ClassMember → ClassMember
  | .error x => .error x
  | .method x s k kd y f => .method x s (renameKey ρ k) kd y (renameFunc ρ f)
  | .literal x s k v => .literal x s (renameKey ρ k) (renameExpr ρ v)

def renameMembers (ρ : Bytes → Bytes) : List ClassMember → List ClassMember
  | [] => []
  | m :: ms => renameMember ρ m :: renameMembers ρ ms

def renameBlock (ρ : Bytes → Bytes) : Block → Block
  | .mk x b => .mk x (renameStmts ρ b)

def renameStmt (ρ : Bytes → Bytes) : Stmt → Stmt
  | .empty x => .empty x
  | .debugger x => .debugger x
  | .expr x e => .expr x (renameExpr ρ e)
  | .decl x k ds => .decl x k (renameDeclarators ρ ds)
  | .ret x v => .ret x (match v with | some e => some (renameExpr ρ e) | none => none)
  | .brk x l => .brk x (l.map (renameIdent ρ))
  | .cont x l => .cont x (l.map (renameIdent ρ))
  | .throw x e => .throw x (renameExpr ρ e)
  | .ifS x t c a => .ifS x (renameExpr ρ t) (renameStmt ρ c) (match a with | some s => some (renameStmt ρ s) | none => none)
  | .whileS x t b => .whileS x (renameExpr ρ t) (renameStmt ρ b)
  | .doS x b t => .doS x (renameStmt ρ b) (renameExpr ρ t)
  | .forS x i t u b => .forS x (match i with | some i => some (renameInit ρ i) | none => none)
      (match t with | some e => some (renameExpr ρ e) | none => none)
      (match u with | some e => some (renameExpr ρ e) | none => none) (renameStmt ρ b)
  | .forIn x l r b => .forIn x (renameInit ρ l) (renameExpr ρ r) (renameStmt ρ b)
  | .forOf x l r b => .forOf x (renameInit ρ l) (renameExpr ρ r) (renameStmt ρ b)
  | .tryS x b h f => .tryS x (renameBlock ρ b) (match h with | some c => some (renameCatch ρ c) | none => none)
      (match f with | some b => some (renameBlock ρ b) | none => none)
  | .block x b => .block x (renameStmts ρ b)
  | .labeled x l b => .labeled x (ρ l) (renameStmt ρ b)
  | .function x f => .function x (renameFunc ρ f)
  | .class x c => .class x (renameClass ρ c)
  | .switch x d y cs => .switch x (renameExpr ρ d) y (renameCases ρ cs)
  | .import x ss src => .import x (ss.map (renameSpec ρ)) src

def renameStmts (ρ : Bytes → Bytes) : List Stmt → List Stmt
  | [] => []
  | s :: ss => renameStmt ρ s :: renameStmts ρ ss

def renameDeclarator (ρ : Bytes → Bytes) : Declarator → Declarator
  | .mk x p i => .mk x (renamePat ρ p) (match i with | some e => some (renameExpr ρ e) | none => none)

def renameDeclarators (ρ : Bytes → Bytes) : List Declarator → List Declarator
  | [] => []
  | d :: ds => renameDeclarator ρ d :: renameDeclarators ρ ds

def renameInit (ρ : Bytes → Bytes) : ForInit → ForInit
  | .decl x k ds => .decl x k (renameDeclarators ρ ds)
  | .expr x e => .expr x (renameExpr ρ e)

def renameCase (ρ : Bytes → Bytes) : SwitchCase → SwitchCase
  | .mk x t b => .mk x (match t with | some e => some (renameExpr ρ e) | none => none) (renameStmts ρ b)

def renameCases (ρ : Bytes → Bytes) : List SwitchCase → List SwitchCase
  | [] => []
  | c :: cs => renameCase ρ c :: renameCases ρ cs

def renameCatch (ρ : Bytes → Bytes) : Catch → Catch
  | .mk x p b => .mk x (renamePat ρ p) (renameBlock ρ b)

end

end Ratel.Spec
