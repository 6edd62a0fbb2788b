import Verif.Model.Validator
/-!
# Accept on the parts of a schema

schema/schema.go:119-149: every node of a schema has a method `Accept`, which
calls a method of the validator.  The validator keeps its state between calls.
-/

namespace Verif

/-- The types with a method `Accept`, schema/schema.go:110-117.  (Nil pointers
are left out.) -/
inductive Node where
  | schema (s : Schema)
  | extension (e : Extension)
  | table (t : Table)
  | column (c : Column)
  | attribute (a : Attribute)
  | index (i : Index)
  | foreignKey (f : ForeignKey)
  | action (a : Action)

/-- `delete(m, k)`; used for `m[k] = declCtx{}`, which replaces an entry. -/
def dropKey (m : List (Str × List Str)) (k : Str) : List (Str × List Str) :=
  m.filter fun x => x.1 ≠ k

/-- `node.Accept(validator)`: the validator afterwards, and the failure if any.
schema/validator.go: 54-109 `VisitSchema`, 111-114 `VisitExtension`, 116-144
`VisitTable`, 146-164 `VisitColumn`, 166-168 `VisitAttribute`, 170-177
`VisitIndex`, 179-199 `VisitForeignKey`, 300-319 `VisitAction`. -/
def accept (env : Env) (c : Ctx) : Node → Ctx × Option Fail
  | .schema s => visitSchema env c s
  | .extension _ => (c, some (.panic (.str "implement me".toList)))
  | .table t =>
      let r := visitTableV { c with tables := dropKey c.tables c.current } t
      (r.1, r.2.map .err)
  | .column col => (c, (checkAttrs col.type [] col.attributes.elems).map .err)
  | .attribute _ => (c, none)
  | .index i => (c, (checkIndexCols c.current (lookupD c.tables c.current) i.columns.elems).map .err)
  | .foreignKey f => (c, (checkForeignKey c f).map .err)
  | .action a =>
      let r := visitActionV { c with actions := dropKey c.actions c.current } a
      (r.1, r.2.map .err)

/-- The validator after some calls (which may have failed or panicked). -/
def acceptMany (env : Env) (c : Ctx) (history : List Node) : Ctx :=
  history.foldl (fun c n => (accept env c n).1) c

end Verif
