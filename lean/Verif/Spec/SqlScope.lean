import Verif.Spec.Program
import Verif.Spec.Validity
/-!
# SQL statements in other surroundings
-/

namespace Verif

/-- `b'` is the body `b` with one statement more, anywhere. -/
def OneMore (b b' : NE Stmt) (st : Stmt) : Prop :=
  ∃ l r, b.list = l ++ r ∧ b'.list = l ++ st :: r

/-- `d'` is the action (or `init`) `d` with one statement more. -/
inductive Decl.OneMore : Decl → Decl → Stmt → Prop where
  | action {a a' : ActionDecl} {st : Stmt} : a' = { a with body := a'.body } →
      Verif.OneMore a.body a'.body st → Decl.OneMore (.action a) (.action a') st
  | init {b b' : NE Stmt} {st : Stmt} : Verif.OneMore b b' st → Decl.OneMore (.init b) (.init b') st

/-- `q` is `p` with one statement more in one of its actions. -/
structure AddedStmt (p q : Program) (st : Stmt) : Prop where
  name : q.name = p.name
  exts : q.exts = p.exts
  decls : ∃ l d d' r, p.decls = l ++ d :: r ∧ q.decls = l ++ d' :: r ∧ d.OneMore d' st

/-- All statements of a program. -/
def Program.stmts (p : Program) : List Stmt :=
  p.decls.flatMap fun
    | .table _ => []
    | .action a => a.body.list
    | .init b => b.list

end Verif
