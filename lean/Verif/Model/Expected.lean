import Verif.Model.Report
/-!
# What a syntax error says is expected

The messages `mismatched input X expecting E`, `extraneous input X expecting E`
and `missing E at X` of ANTLR's `DefaultErrorStrategy` name the set E of
expected tokens (`Parser.GetExpectedTokens`); `no viable alternative at input X`
and `rule fn_arg_expr ...` do not.  They become part of the error that
`ParseKF` returns (utils/error_listener.go:58).
-/

namespace Verif

/-- The states that the generated code sets before `p.Match(...)` and before the
tests of token sets, rule function by rule function
(kfgrammar/kuneiform_parser.go; extracted by a script, with the lines of the
first and the last one). -/
def matchStates : Rule → List Nat
  | .source_unit => [103, 118]  -- 727-800
  | .database_directive => [120]  -- 911
  | .extension_directive => [123, 125, 127, 131, 133]  -- 1091-1145
  | .ext_config_list => [136]  -- 1301
  | .ext_config => [144]  -- 1445
  | .annotation_decl => [148, 150]  -- 1586-1598
  | .annotation_attr_list => [153]  -- 1754
  | .annotation_attr => [161]  -- 1898
  | .table_decl => [164, 166, 168, 178, 181]  -- 2140-2236
  | .column_def_list => [192]  -- 2583
  | .column_type => [199]  -- 2708
  | .column_constraint => [201, 202, 203, 204, 205, 207, 209, 210, 212, 214, 215, 217, 219, 220, 222, 224, 225, 227]  -- 2889-3066
  | .literal_value => [231]  -- 3175
  | .number_value => [233]  -- 3269
  | .index_def => [236, 237, 239]  -- 3426-3446
  | .foreign_key_action => [241, 242, 245]  -- 3580-3609
  | .foreign_key_def => [247, 248, 250, 251, 253, 255]  -- 3846-3901
  | .action_visibility => [262]  -- 4025
  | .action_mutability => [264]  -- 4119
  | .action_auxiliary => [266]  -- 4213
  | .action_decl => [282, 284, 286, 288, 290]  -- 4717-4765
  | .param_list => [295]  -- 4931
  | .parameter => [302]  -- 5037
  | .database_name => [304]  -- 5131
  | .extension_name => [306]  -- 5225
  | .ext_config_name => [308]  -- 5319
  | .table_name => [310]  -- 5413
  | .action_name => [312]  -- 5507
  | .column_name => [314]  -- 5601
  | .column_name_list => [317]  -- 5757
  | .index_name => [324]  -- 5863
  | .annotation_target_name => [326]  -- 5957
  | .annotation_attr_name => [328]  -- 6051
  | .init_decl => [334, 335, 336, 337, 339]  -- 6386-6422
  | .sql_stmt => [350, 351]  -- 6806-6814
  | .call_stmt => [354, 359]  -- 6961-6975
  | .call_receivers => [362]  -- 7131
  | .call_body => [370, 372]  -- 7280-7292
  | .variable => [374]  -- 7386
  | .block_var => [376]  -- 7480
  | .extension_call_name => [378, 379, 380]  -- 7584-7600
  | .sfn_name => [386]  -- 7832
  | .fn_arg_list => [391]  -- 7998
  | .fn_arg_expr => [402, 404, 406, 408, 411, 413, 420, 423, 428, 431, 434, 437, 440, 443, 446, 449]  -- 8402-8744
  | _ => []

open Classical in
/-- The expected tokens of the first error that `exec` reports: the same run,
with the set instead of the result.

* `Match(T)`, and the tests of sets: `GetExpectedTokens` in the state set
  before, from which exactly these tokens lead on (`C75_match_states`).
* `Sync`: `NextTokens` of the state.  `Sync` reports nothing if the rule can end
  there, so the calling rules are never asked.
* Errors of the prediction, of predicates, and `NoViableAltException` have no
  such set. -/
noncomputable def wanted (rt : Runtime) : Nat → List Nat → Nat → Go → List Tok → Option (TT → Prop)
  | n + 1, ctx, p, .seq a b, ts =>
      match exec rt n ctx p a ts with
      | .ok _ ts => wanted rt n ctx p b ts
      | _ => wanted rt n ctx p a ts
  | _ + 1, _, _, .tok x, _ => some fun t => t = x
  | _ + 1, _, _, .set c, _ => some fun t => c.ok t = true
  | n + 1, ctx, _, .call st r k, ts => wanted rt n (st :: ctx) k (goCode r) ts
  | _ + 1, _, _, .sync st, _ => some fun t => parserAtn.Looks st [] (some t)
  | n + 1, ctx, p, .ifLA c a b, ts =>
      if c.ok (la ts) then wanted rt n ctx p a ts else wanted rt n ctx p b ts
  | n + 1, ctx, p, .whileLA c a, ts =>
      match exec rt n ctx p a ts with
      | .ok _ ts => wanted rt n ctx p (.whileLA c a) ts
      | _ => wanted rt n ctx p a ts
  | n + 1, ctx, p, .whileAP d a, ts =>
      match rt.predict d p ctx ts with
      | 1 => match exec rt n ctx p a ts with
        | .ok _ ts => wanted rt n ctx p (.whileAP d a) ts
        | _ => wanted rt n ctx p a ts
      | _ + 3 => wanted rt n ctx p (.whileAP d a) ts
      | _ => none
  | n + 1, ctx, p, .switchAP d x, ts =>
      match rt.predict d p ctx ts with
      | 0 => none
      | i + 1 => match x.arms.lookup (i + 1) with
        | some a => wanted rt n ctx p a ts
        | none => none
  | _, _, _, _, _ => none

/-- The expected tokens of the first error that the parser reports for a text
(see `firstPlaces`); `none` if the message of that error names none. -/
noncomputable def expectedAt (s : Str) : Option (TT → Prop) :=
  let ts := (((tablePart s.length s).1).filter (fun p => !p.2)).map (·.1)
  wanted simRuntime (30 * (ts.length + 2)) [] 0 (goCode .source_unit) (ts ++ [Tok.eof])

/-- `LiteralNames` (kfgrammar/kuneiform_parser.go:35-46; the lexer has the same,
kfgrammar/kuneiform_lexer.go:45-56). -/
def literalNames : List String :=
  ["", "':'", "';'", "'('", "'{'", "')'", "'}'", "','", "'$'", "'#'", "'@'", "'.'", "'='", "'+'",
   "'-'", "'*'", "'/'", "'%'", "'~'", "'||'", "'<<'", "'>>'", "'&'", "'|'", "'=='", "'<'",
   "'<='", "'>'", "'>='", "'!='", "'<>'", "'database'", "'use'", "'as'", "'table'", "'action'",
   "'init'", "'public'", "'private'", "'view'", "'owner'", "'int'", "'text'", "'blob'", "'min'",
   "'max'", "'minlen'", "'maxlen'", "'notnull'", "'primary'", "'default'", "'unique'", "'index'",
   "'foreign_key'", "'fk'", "'references'", "'ref'", "'on_update'", "'on_delete'", "'do'",
   "'no_action'", "'cascade'", "'set_null'", "'set_default'", "'restrict'", "", "", "", "", "",
   "'not'", "'and'", "'or'"]

/-- `SymbolicNames` (kfgrammar/kuneiform_parser.go:47-62; the lexer has the
same, kfgrammar/kuneiform_lexer.go:57-72). -/
def symbolicNames : List String :=
  ["", "COL", "SCOL", "L_PAREN", "L_BRACE", "R_PAREN", "R_BRACE", "COMMA", "DOLLAR", "HASH",
   "AT", "PERIOD", "ASSIGN", "PLUS", "MINUS", "STAR", "DIV", "MOD", "TILDE", "PIPE2", "LT2",
   "GT2", "AMP", "PIPE", "EQ", "LT", "LT_EQ", "GT", "GT_EQ", "SQL_NOT_EQ1", "SQL_NOT_EQ2",
   "DATABASE_", "USE_", "AS_", "TABLE_", "ACTION_", "INIT_", "PUBLIC_", "PRIVATE_", "VIEW_",
   "OWNER_", "INT_", "TEXT_", "BLOB_", "MIN_", "MAX_", "MIN_LEN_", "MAX_LEN_", "NOT_NULL_",
   "PRIMARY_", "DEFAULT_", "UNIQUE_", "INDEX_", "FOREIGN_KEY_", "FOREIGN_KEY_ABBR_",
   "REFERENCES_", "REFERENCES_ABBR_", "ACTION_ON_UPDATE_", "ACTION_ON_DELETE_", "ACTION_DO_",
   "ACTION_DO_NO_ACTION_", "ACTION_DO_CASCADE_", "ACTION_DO_SET_NULL_", "ACTION_DO_SET_DEFAULT_",
   "ACTION_DO_RESTRICT_", "SELECT_", "INSERT_", "UPDATE_", "DELETE_", "WITH_", "NOT_", "AND_",
   "OR_", "IDENTIFIER", "INDEX_NAME", "PARAM_OR_VAR", "BLOCK_VAR_OR_ANNOTATION",
   "UNSIGNED_NUMBER_LITERAL", "STRING_LITERAL", "SQL_KEYWORDS", "SQL_STMT", "WS", "TERMINATOR",
   "BLOCK_COMMENT", "LINE_COMMENT"]

/-- `IntervalSet.elementName` of the ANTLR runtime: how a token is called in a
message. -/
def tokenName (t : TT) : String :=
  if t = .EOF then "<EOF>"
  else if t.code < literalNames.length ∧ literalNames.getD t.code "" ≠ "" then
    literalNames.getD t.code ""
  else symbolicNames.getD t.code ""

open Classical in
/-- The members of a set of tokens, in the order of their numbers (`EOF` is -1
in Go). -/
noncomputable def members (E : TT → Prop) : List TT := TT.all.filter fun t => E t

/-- `IntervalSet.toTokenString`: `names[0]`, or all names in braces.  `none`
stands for the panic (index out of range) that an empty set leads to. -/
def tokenString (l : List TT) : Option Str :=
  match l.map fun t => (tokenName t).toList with
  | [] => none
  | [x] => some x
  | x :: y :: more => some ("{".toList ++ x ++ (y :: more).flatMap (", ".toList ++ ·) ++ "}".toList)

end Verif
