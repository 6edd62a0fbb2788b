import Verif.Spec.Validity
import Verif.Model.ParseKF
import Verif.Spec.Source
/-!
# Concrete cases

Inputs used to show that the hypotheses of the theorems can be met.
-/

namespace Verif.Sample

/-- Statement parsers that know four statements. -/
def env : Env where
  actParse := fun s =>
    if s = "hello($x);".toList then
      .ok (.actionCall "hello".toList [.bind "$x".toList "$x".toList])
    else if s = "$r=e.m($x,@caller);".toList then
      .ok (.extCall "e".toList [.bind "$x".toList "$x".toList, .bind "@caller".toList "@caller".toList]
        ["$r".toList])
    else if s = "hello($r);".toList then
      .ok (.actionCall "hello".toList [.bind "$r".toList "$r".toList])
    else if s = "hello(lower($zz));".toList then
      .ok (.actionCall "hello".toList [.other ["$zz".toList]])
    else if s = "select 1;".toList then .ok .dml
    else if s = "boom();".toList then .error (.panic (.str "boom".toList))
    else .error (.err (.other "cannot parse".toList))
  sqlCheck := fun s => if s = "select 1;".toList then none else some (.err (.other "bad".toList))

def users : Table where
  name := "users".toList
  columns := some [⟨"id".toList, C.colInt, some [⟨C.attrPrimaryKey, none⟩, ⟨C.attrMin, some "0".toList⟩]⟩,
    ⟨"name".toList, C.colText, some [⟨C.attrMaxLength, some "9".toList⟩]⟩]
  indexes := some [⟨"by_name".toList, some ["name".toList, "id".toList], C.idxBtree⟩]
  foreignKeys := none

def posts : Table where
  name := "posts".toList
  columns := some [⟨"id".toList, C.colInt, none⟩, ⟨"author".toList, C.colInt, none⟩]
  indexes := none
  foreignKeys := some [⟨some ["author".toList], some ["id".toList], "users".toList,
    some [⟨C.onDelete, C.doCascade⟩, ⟨C.onUpdate, C.doSetNull⟩]⟩]

/-- A schema with an extension, two tables (the second with a foreign key)
and two actions. -/
def schema : Schema where
  owner := []
  name := "app".toList
  tables := some [posts, users]
  actions := some [
    ⟨"hello".toList, none, some ["$x".toList], true, C.mutView, none, some ["select 1;".toList]⟩,
    ⟨"go".toList, none, some ["$x".toList, "$y".toList], false, C.mutUpdate, none,
      some ["$r=e.m($x,@caller);".toList, "hello($r);".toList]⟩]
  extensions := some [⟨"erc20".toList, none, "e".toList⟩]

/-- An index that lists its own name. -/
def selfIndex : Schema :=
  ⟨[], "app".toList, some [⟨"t".toList, some [⟨"id".toList, C.colInt, none⟩],
    some [⟨"i".toList, some ["i".toList], C.idxBtree⟩], none⟩], none, none⟩

/-- A foreign key whose keys are names of indexes. -/
def fkOnIndex : Schema :=
  ⟨[], "app".toList, some [⟨"t".toList, some [⟨"id".toList, C.colInt, none⟩],
    some [⟨"i".toList, some ["id".toList], C.idxBtree⟩],
    some [⟨some ["i".toList], some ["i".toList], "t".toList, none⟩]⟩], none, none⟩

/-- An action that uses an undefined variable inside a larger argument. -/
def nestedVar : Schema :=
  ⟨[], "app".toList, none,
    some [⟨"hello".toList, none, some ["$x".toList], true, C.mutView, none,
      some ["hello(lower($zz));".toList]⟩], none⟩

/-- The external parsers, a runtime that reports one error, and a visitor that
prints one line. -/
def world : World where
  toEnv := env
  report := fun _ => ((1, 0, "mismatched input".toList), [])
  crash := fun _ => none

/-- A source text with every kind of declaration. -/
def text : Str := "database app; use erc20 {addr: '0x',n:3} as e;
table posts {id int, author int, fk(author) ref users(id) on_delete cascade on_update do set_null}
/* comment */
init() { select 1; }
action hello ($x) public view { select 1; }
table users { id int primary min(0), name text maxlen(9), #by_name index(name, id), } // end
@kgw(authn='true') action go($x, $y) owner { $r = e.m($x, @caller); hello ( $r ); }".toList

/-- What it says. -/
def prog : Program where
  name := "app".toList
  exts := [⟨"erc20".toList, some ⟨⟨"addr".toList, .str "'0x'".toList⟩,
    [⟨"n".toList, .num "3".toList⟩]⟩, "e".toList⟩]
  decls := [
    .table ⟨"posts".toList, ⟨⟨"id".toList, .int, []⟩, [⟨"author".toList, .int, []⟩]⟩,
      [.fk ⟨true, ⟨"author".toList, []⟩, true, "users".toList, ⟨"id".toList, []⟩,
        [⟨.delete, false, .cascade⟩, ⟨.update, true, .setNull⟩]⟩], false⟩,
    .init ⟨.sql "select 1".toList, []⟩,
    .action ⟨[], "hello".toList, ⟨some "$x".toList, []⟩, [.pub, .view],
      ⟨.sql "select 1".toList, []⟩⟩,
    .table ⟨"users".toList, ⟨⟨"id".toList, .int, [.primary, .min "0".toList]⟩,
      [⟨"name".toList, .text, [.maxLen "9".toList]⟩]⟩,
      [.index ⟨"by_name".toList, .index, ⟨"name".toList, ["id".toList]⟩⟩], true⟩,
    .action ⟨[⟨"kgw".toList, ⟨⟨"authn".toList, .str "'true'".toList⟩, []⟩⟩], "go".toList,
      ⟨some "$x".toList, ["$y".toList]⟩, [.owner],
      ⟨.call (some ⟨"$r".toList, []⟩) (some "e".toList) "m".toList
          ⟨some (.var "$x".toList), [.block "@caller".toList]⟩,
        [.call none none "hello".toList ⟨some (.var "$r".toList), []⟩]⟩⟩]

end Verif.Sample
