import Verif.Spec.Program
/-!
# What trace mode prints

One line per declaration, list and statement that is read, in the order in
which they are read, with the kind of the construct and its tokens without
anything between them.  Reading stops at the first complaint about the
declarations.
-/

namespace Verif

/-- The line for a construct. -/
def visitOf (kind : String) (ts : List Tok) : Str :=
  ("visit tree: *kfgrammar." ++ kind ++ "Context, ").toList ++ glued ts

def ExtDecl.visits (e : ExtDecl) : List Str :=
  visitOf "Extension_directive" e.toks ::
  (match e.config with
    | none => []
    | some c => [visitOf "Ext_config_list" (c.toks (Pair.toks .COL))])

def ColDecl.visits (c : ColDecl) : List Str :=
  visitOf "Column_def" c.toks :: c.constraints.map fun k => visitOf "Column_constraint" k.toks

def namesVisit (x : NE Str) : Str := visitOf "Column_name_list" (x.toks fun s => [idTok s])

def IdxDecl.visits (i : IdxDecl) : List Str := [visitOf "Index_def" i.toks, namesVisit i.columns]

def FkDecl.visits (f : FkDecl) : List Str :=
  [visitOf "Foreign_key_def" f.toks, namesVisit f.child, namesVisit f.parent] ++
  f.acts.map fun a => visitOf "Foreign_key_action" a.toks

/-- A table: its columns, its indexes, its foreign keys. -/
def TableDecl.visits (t : TableDecl) : List Str :=
  [visitOf "Table_decl" t.toks, visitOf "Column_def_list" (t.columns.toks ColDecl.toks)] ++
  t.columns.list.flatMap ColDecl.visits ++ t.indexes.flatMap IdxDecl.visits ++
  t.fks.flatMap FkDecl.visits

def bodyVisits (b : NE Stmt) : List Str :=
  visitOf "Action_stmt_list" (b.list.flatMap Stmt.toks) ::
  b.list.map fun s => visitOf "Action_stmt" s.toks

/-- An action; a complaint about its modifiers comes before its statements. -/
def ActionDecl.visits (a : ActionDecl) : List Str :=
  [visitOf "Action_decl" a.toks] ++
  a.annotations.map (fun x => visitOf "Annotation_decl" x.toks) ++
  (if a.params.list = [] then []
    else [visitOf "Param_list" (a.params.toks fun s => [varTok s])]) ++
  [visitOf "Action_attr_list" (a.modifiers.map Modifier.tok)] ++
  (if modifierFault a.modifiers = none then bodyVisits a.body else [])

/-- Actions, up to the first complaint; then the rest. -/
def actionsVisits (rest : List Str) : List ActionDecl → List Str
  | [] => rest
  | a :: as => a.visits ++ if modifierFault a.modifiers = none then actionsVisits rest as else []

def initVisits (b : NE Stmt) : List Str :=
  visitOf "Init_decl" (Decl.init b).toks :: bodyVisits b

/-- A source file: extensions, tables, actions, and the `init` block last. -/
def Program.visits (p : Program) : List Str :=
  [visitOf "Source_unit" (p.toks ++ [kw .EOF])] ++ p.exts.flatMap ExtDecl.visits ++
  p.tables.flatMap TableDecl.visits ++
  (if 2 ≤ p.inits.length then []
    else actionsVisits (p.inits.flatMap initVisits) p.actions)

end Verif
