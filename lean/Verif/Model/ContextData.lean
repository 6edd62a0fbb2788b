import Verif.Model.Grammar
/-!
# The generated parse tree types

Tables read off kfgrammar/kuneiform_parser.go, kuneiformparser_visitor.go and
kuneiformparser_base_visitor.go by a script: for every rule the getters of its
context type (with their bodies, which have one of six shapes), the methods of
its interface, the method that its `Accept` calls, and the type and rule index
that its constructor and its rule function use.  `Rule` stands for the context
type `XContext`, the interface `IXContext` and the rule `X` in its three roles;
which of them is meant is said at each field.  Left out: `GetText` and the
other methods of the runtime, `ToStringTree`, and what the two labels of
`Fn_arg_exprContext` hold.
-/

namespace Verif

/-- Result types of getters: `IXContext`, `[]IXContext`, `antlr.TerminalNode`,
`[]antlr.TerminalNode`. -/
inductive GetRet where
  | ctx (r : Rule)
  | ctxs (r : Rule)
  | term
  | terms
  deriving DecidableEq, Repr

/-- The signature of a getter: its name, whether it has a parameter `i int`,
and its result type. -/
structure GetSig where
  name : Str
  indexed : Bool
  ret : GetRet
  deriving DecidableEq, Repr

/-- Methods.  `embedded`: those of `antlr.ParserRuleContext`, which
`BaseParserRuleContext` has.  `marker`: `IsXContext()`.  `label`: setters and
getters of labels. -/
inductive Method where
  | embedded
  | getParser
  | marker (r : Rule)
  | label (n : Str)
  | getter (s : GetSig)
  deriving DecidableEq, Repr

/-- The bodies of getters, with the interfaces in their type assertions, in the
order in which they stand there; in `tst := make([]I, len)` of `all` it is that
of the result type. -/
inductive GetBody where
  /-- for example kuneiform_parser.go:509-523 -/
  | first (test result : Rule)
  /-- for example kuneiform_parser.go:533-552 -/
  | all (count test item : Rule)
  /-- for example kuneiform_parser.go:554-572 -/
  | nth (test result : Rule)
  /-- `return s.GetToken(KuneiformParserX, 0)` -/
  | token (ty : TT)
  /-- `return s.GetToken(KuneiformParserX, i)` -/
  | tokenNth (ty : TT)
  /-- `return s.GetTokens(KuneiformParserX)` -/
  | tokens (ty : TT)
  deriving DecidableEq, Repr

/-- A getter. -/
structure Getter where
  sig : GetSig
  body : GetBody
  deriving DecidableEq, Repr

/-- The getters of the context types, in the order of the source. -/
def getters : Rule → List Getter
  /- kuneiform_parser.go:509-695 -/
  | .source_unit => [
    ⟨⟨"Database_directive".toList, false, .ctx .database_directive⟩, .first .database_directive .database_directive⟩,
    ⟨⟨"SCOL".toList, false, .term⟩, .token .SCOL⟩,
    ⟨⟨"EOF".toList, false, .term⟩, .token .EOF⟩,
    ⟨⟨"AllExtension_directive".toList, false, .ctxs .extension_directive⟩, .all .extension_directive .extension_directive .extension_directive⟩,
    ⟨⟨"Extension_directive".toList, true, .ctx .extension_directive⟩, .nth .extension_directive .extension_directive⟩,
    ⟨⟨"AllTable_decl".toList, false, .ctxs .table_decl⟩, .all .table_decl .table_decl .table_decl⟩,
    ⟨⟨"Table_decl".toList, true, .ctx .table_decl⟩, .nth .table_decl .table_decl⟩,
    ⟨⟨"AllAction_decl".toList, false, .ctxs .action_decl⟩, .all .action_decl .action_decl .action_decl⟩,
    ⟨⟨"Action_decl".toList, true, .ctx .action_decl⟩, .nth .action_decl .action_decl⟩,
    ⟨⟨"AllInit_decl".toList, false, .ctxs .init_decl⟩, .all .init_decl .init_decl .init_decl⟩,
    ⟨⟨"Init_decl".toList, true, .ctx .init_decl⟩, .nth .init_decl .init_decl⟩]
  /- kuneiform_parser.go:867-885 -/
  | .database_directive => [
    ⟨⟨"DATABASE_".toList, false, .term⟩, .token .DATABASE_⟩,
    ⟨⟨"Database_name".toList, false, .ctx .database_name⟩, .first .database_name .database_name⟩]
  /- kuneiform_parser.go:988-1063 -/
  | .extension_directive => [
    ⟨⟨"USE_".toList, false, .term⟩, .token .USE_⟩,
    ⟨⟨"AllExtension_name".toList, false, .ctxs .extension_name⟩, .all .extension_name .extension_name .extension_name⟩,
    ⟨⟨"Extension_name".toList, true, .ctx .extension_name⟩, .nth .extension_name .extension_name⟩,
    ⟨⟨"AS_".toList, false, .term⟩, .token .AS_⟩,
    ⟨⟨"SCOL".toList, false, .term⟩, .token .SCOL⟩,
    ⟨⟨"L_BRACE".toList, false, .term⟩, .token .L_BRACE⟩,
    ⟨⟨"Ext_config_list".toList, false, .ctx .ext_config_list⟩, .first .ext_config_list .ext_config_list⟩,
    ⟨⟨"R_BRACE".toList, false, .term⟩, .token .R_BRACE⟩]
  /- kuneiform_parser.go:1214-1261 -/
  | .ext_config_list => [
    ⟨⟨"AllExt_config".toList, false, .ctxs .ext_config⟩, .all .ext_config .ext_config .ext_config⟩,
    ⟨⟨"Ext_config".toList, true, .ctx .ext_config⟩, .nth .ext_config .ext_config⟩,
    ⟨⟨"AllCOMMA".toList, false, .terms⟩, .tokens .COMMA⟩,
    ⟨⟨"COMMA".toList, true, .term⟩, .tokenNth .COMMA⟩]
  /- kuneiform_parser.go:1381-1415 -/
  | .ext_config => [
    ⟨⟨"Ext_config_name".toList, false, .ctx .ext_config_name⟩, .first .ext_config_name .ext_config_name⟩,
    ⟨⟨"COL".toList, false, .term⟩, .token .COL⟩,
    ⟨⟨"Ext_config_value".toList, false, .ctx .ext_config_value⟩, .first .ext_config_value .ext_config_value⟩]
  /- kuneiform_parser.go:1518-1556 -/
  | .annotation_decl => [
    ⟨⟨"Annotation_target_name".toList, false, .ctx .annotation_target_name⟩, .first .annotation_target_name .annotation_target_name⟩,
    ⟨⟨"L_PAREN".toList, false, .term⟩, .token .L_PAREN⟩,
    ⟨⟨"Annotation_attr_list".toList, false, .ctx .annotation_attr_list⟩, .first .annotation_attr_list .annotation_attr_list⟩,
    ⟨⟨"R_PAREN".toList, false, .term⟩, .token .R_PAREN⟩]
  /- kuneiform_parser.go:1667-1714 -/
  | .annotation_attr_list => [
    ⟨⟨"AllAnnotation_attr".toList, false, .ctxs .annotation_attr⟩, .all .annotation_attr .annotation_attr .annotation_attr⟩,
    ⟨⟨"Annotation_attr".toList, true, .ctx .annotation_attr⟩, .nth .annotation_attr .annotation_attr⟩,
    ⟨⟨"AllCOMMA".toList, false, .terms⟩, .tokens .COMMA⟩,
    ⟨⟨"COMMA".toList, true, .term⟩, .tokenNth .COMMA⟩]
  /- kuneiform_parser.go:1834-1868 -/
  | .annotation_attr => [
    ⟨⟨"Annotation_attr_name".toList, false, .ctx .annotation_attr_name⟩, .first .annotation_attr_name .annotation_attr_name⟩,
    ⟨⟨"ASSIGN".toList, false, .term⟩, .token .ASSIGN⟩,
    ⟨⟨"Annotation_attr_value".toList, false, .ctx .annotation_attr_value⟩, .first .annotation_attr_value .annotation_attr_value⟩]
  /- kuneiform_parser.go:1978-2110 -/
  | .table_decl => [
    ⟨⟨"TABLE_".toList, false, .term⟩, .token .TABLE_⟩,
    ⟨⟨"Table_name".toList, false, .ctx .table_name⟩, .first .table_name .table_name⟩,
    ⟨⟨"L_BRACE".toList, false, .term⟩, .token .L_BRACE⟩,
    ⟨⟨"Column_def_list".toList, false, .ctx .column_def_list⟩, .first .column_def_list .column_def_list⟩,
    ⟨⟨"R_BRACE".toList, false, .term⟩, .token .R_BRACE⟩,
    ⟨⟨"AllCOMMA".toList, false, .terms⟩, .tokens .COMMA⟩,
    ⟨⟨"COMMA".toList, true, .term⟩, .tokenNth .COMMA⟩,
    ⟨⟨"AllIndex_def".toList, false, .ctxs .index_def⟩, .all .index_def .index_def .index_def⟩,
    ⟨⟨"Index_def".toList, true, .ctx .index_def⟩, .nth .index_def .index_def⟩,
    ⟨⟨"AllForeign_key_def".toList, false, .ctxs .foreign_key_def⟩, .all .foreign_key_def .foreign_key_def .foreign_key_def⟩,
    ⟨⟨"Foreign_key_def".toList, true, .ctx .foreign_key_def⟩, .nth .foreign_key_def .foreign_key_def⟩]
  /- kuneiform_parser.go:2305-2376 -/
  | .column_def => [
    ⟨⟨"Column_name".toList, false, .ctx .column_name⟩, .first .column_name .column_name⟩,
    ⟨⟨"Column_type".toList, false, .ctx .column_type⟩, .first .column_type .column_type⟩,
    ⟨⟨"AllColumn_constraint".toList, false, .ctxs .column_constraint⟩, .all .column_constraint .column_constraint .column_constraint⟩,
    ⟨⟨"Column_constraint".toList, true, .ctx .column_constraint⟩, .nth .column_constraint .column_constraint⟩]
  /- kuneiform_parser.go:2493-2540 -/
  | .column_def_list => [
    ⟨⟨"AllColumn_def".toList, false, .ctxs .column_def⟩, .all .column_def .column_def .column_def⟩,
    ⟨⟨"Column_def".toList, true, .ctx .column_def⟩, .nth .column_def .column_def⟩,
    ⟨⟨"AllCOMMA".toList, false, .terms⟩, .tokens .COMMA⟩,
    ⟨⟨"COMMA".toList, true, .term⟩, .tokenNth .COMMA⟩]
  /- kuneiform_parser.go:2667-2677 -/
  | .column_type => [
    ⟨⟨"INT_".toList, false, .term⟩, .token .INT_⟩,
    ⟨⟨"TEXT_".toList, false, .term⟩, .token .TEXT_⟩,
    ⟨⟨"BLOB_".toList, false, .term⟩, .token .BLOB_⟩]
  /- kuneiform_parser.go:2785-2855 -/
  | .column_constraint => [
    ⟨⟨"PRIMARY_".toList, false, .term⟩, .token .PRIMARY_⟩,
    ⟨⟨"NOT_NULL_".toList, false, .term⟩, .token .NOT_NULL_⟩,
    ⟨⟨"UNIQUE_".toList, false, .term⟩, .token .UNIQUE_⟩,
    ⟨⟨"DEFAULT_".toList, false, .term⟩, .token .DEFAULT_⟩,
    ⟨⟨"L_PAREN".toList, false, .term⟩, .token .L_PAREN⟩,
    ⟨⟨"Literal_value".toList, false, .ctx .literal_value⟩, .first .literal_value .literal_value⟩,
    ⟨⟨"R_PAREN".toList, false, .term⟩, .token .R_PAREN⟩,
    ⟨⟨"MIN_".toList, false, .term⟩, .token .MIN_⟩,
    ⟨⟨"Number_value".toList, false, .ctx .number_value⟩, .first .number_value .number_value⟩,
    ⟨⟨"MAX_".toList, false, .term⟩, .token .MAX_⟩,
    ⟨⟨"MIN_LEN_".toList, false, .term⟩, .token .MIN_LEN_⟩,
    ⟨⟨"MAX_LEN_".toList, false, .term⟩, .token .MAX_LEN_⟩]
  /- kuneiform_parser.go:3138-3144 -/
  | .literal_value => [
    ⟨⟨"STRING_LITERAL".toList, false, .term⟩, .token .STRING_LITERAL⟩,
    ⟨⟨"UNSIGNED_NUMBER_LITERAL".toList, false, .term⟩, .token .UNSIGNED_NUMBER_LITERAL⟩]
  /- kuneiform_parser.go:3241-3243 -/
  | .number_value => [
    ⟨⟨"UNSIGNED_NUMBER_LITERAL".toList, false, .term⟩, .token .UNSIGNED_NUMBER_LITERAL⟩]
  /- kuneiform_parser.go:3341-3391 -/
  | .index_def => [
    ⟨⟨"Index_name".toList, false, .ctx .index_name⟩, .first .index_name .index_name⟩,
    ⟨⟨"L_PAREN".toList, false, .term⟩, .token .L_PAREN⟩,
    ⟨⟨"Column_name_list".toList, false, .ctx .column_name_list⟩, .first .column_name_list .column_name_list⟩,
    ⟨⟨"R_PAREN".toList, false, .term⟩, .token .R_PAREN⟩,
    ⟨⟨"UNIQUE_".toList, false, .term⟩, .token .UNIQUE_⟩,
    ⟨⟨"INDEX_".toList, false, .term⟩, .token .INDEX_⟩,
    ⟨⟨"PRIMARY_".toList, false, .term⟩, .token .PRIMARY_⟩]
  /- kuneiform_parser.go:3519-3549 -/
  | .foreign_key_action => [
    ⟨⟨"ACTION_ON_UPDATE_".toList, false, .term⟩, .token .ACTION_ON_UPDATE_⟩,
    ⟨⟨"ACTION_ON_DELETE_".toList, false, .term⟩, .token .ACTION_ON_DELETE_⟩,
    ⟨⟨"ACTION_DO_NO_ACTION_".toList, false, .term⟩, .token .ACTION_DO_NO_ACTION_⟩,
    ⟨⟨"ACTION_DO_RESTRICT_".toList, false, .term⟩, .token .ACTION_DO_RESTRICT_⟩,
    ⟨⟨"ACTION_DO_SET_NULL_".toList, false, .term⟩, .token .ACTION_DO_SET_NULL_⟩,
    ⟨⟨"ACTION_DO_SET_DEFAULT_".toList, false, .term⟩, .token .ACTION_DO_SET_DEFAULT_⟩,
    ⟨⟨"ACTION_DO_CASCADE_".toList, false, .term⟩, .token .ACTION_DO_CASCADE_⟩,
    ⟨⟨"ACTION_DO_".toList, false, .term⟩, .token .ACTION_DO_⟩]
  /- kuneiform_parser.go:3687-3815 -/
  | .foreign_key_def => [
    ⟨⟨"AllL_PAREN".toList, false, .terms⟩, .tokens .L_PAREN⟩,
    ⟨⟨"L_PAREN".toList, true, .term⟩, .tokenNth .L_PAREN⟩,
    ⟨⟨"AllColumn_name_list".toList, false, .ctxs .column_name_list⟩, .all .column_name_list .column_name_list .column_name_list⟩,
    ⟨⟨"Column_name_list".toList, true, .ctx .column_name_list⟩, .nth .column_name_list .column_name_list⟩,
    ⟨⟨"AllR_PAREN".toList, false, .terms⟩, .tokens .R_PAREN⟩,
    ⟨⟨"R_PAREN".toList, true, .term⟩, .tokenNth .R_PAREN⟩,
    ⟨⟨"Table_name".toList, false, .ctx .table_name⟩, .first .table_name .table_name⟩,
    ⟨⟨"FOREIGN_KEY_".toList, false, .term⟩, .token .FOREIGN_KEY_⟩,
    ⟨⟨"FOREIGN_KEY_ABBR_".toList, false, .term⟩, .token .FOREIGN_KEY_ABBR_⟩,
    ⟨⟨"REFERENCES_".toList, false, .term⟩, .token .REFERENCES_⟩,
    ⟨⟨"REFERENCES_ABBR_".toList, false, .term⟩, .token .REFERENCES_ABBR_⟩,
    ⟨⟨"AllForeign_key_action".toList, false, .ctxs .foreign_key_action⟩, .all .foreign_key_action .foreign_key_action .foreign_key_action⟩,
    ⟨⟨"Foreign_key_action".toList, true, .ctx .foreign_key_action⟩, .nth .foreign_key_action .foreign_key_action⟩]
  /- kuneiform_parser.go:3988-3994 -/
  | .action_visibility => [
    ⟨⟨"PUBLIC_".toList, false, .term⟩, .token .PUBLIC_⟩,
    ⟨⟨"PRIVATE_".toList, false, .term⟩, .token .PRIVATE_⟩]
  /- kuneiform_parser.go:4091-4093 -/
  | .action_mutability => [
    ⟨⟨"VIEW_".toList, false, .term⟩, .token .VIEW_⟩]
  /- kuneiform_parser.go:4185-4187 -/
  | .action_auxiliary => [
    ⟨⟨"OWNER_".toList, false, .term⟩, .token .OWNER_⟩]
  /- kuneiform_parser.go:4284-4405 -/
  | .action_attr_list => [
    ⟨⟨"AllAction_visibility".toList, false, .ctxs .action_visibility⟩, .all .action_visibility .action_visibility .action_visibility⟩,
    ⟨⟨"Action_visibility".toList, true, .ctx .action_visibility⟩, .nth .action_visibility .action_visibility⟩,
    ⟨⟨"AllAction_mutability".toList, false, .ctxs .action_mutability⟩, .all .action_mutability .action_mutability .action_mutability⟩,
    ⟨⟨"Action_mutability".toList, true, .ctx .action_mutability⟩, .nth .action_mutability .action_mutability⟩,
    ⟨⟨"AllAction_auxiliary".toList, false, .ctxs .action_auxiliary⟩, .all .action_auxiliary .action_auxiliary .action_auxiliary⟩,
    ⟨⟨"Action_auxiliary".toList, true, .ctx .action_auxiliary⟩, .nth .action_auxiliary .action_auxiliary⟩]
  /- kuneiform_parser.go:4546-4669 -/
  | .action_decl => [
    ⟨⟨"ACTION_".toList, false, .term⟩, .token .ACTION_⟩,
    ⟨⟨"Action_name".toList, false, .ctx .action_name⟩, .first .action_name .action_name⟩,
    ⟨⟨"L_PAREN".toList, false, .term⟩, .token .L_PAREN⟩,
    ⟨⟨"Param_list".toList, false, .ctx .param_list⟩, .first .param_list .param_list⟩,
    ⟨⟨"R_PAREN".toList, false, .term⟩, .token .R_PAREN⟩,
    ⟨⟨"Action_attr_list".toList, false, .ctx .action_attr_list⟩, .first .action_attr_list .action_attr_list⟩,
    ⟨⟨"L_BRACE".toList, false, .term⟩, .token .L_BRACE⟩,
    ⟨⟨"Action_stmt_list".toList, false, .ctx .action_stmt_list⟩, .first .action_stmt_list .action_stmt_list⟩,
    ⟨⟨"R_BRACE".toList, false, .term⟩, .token .R_BRACE⟩,
    ⟨⟨"AllAnnotation_decl".toList, false, .ctxs .annotation_decl⟩, .all .annotation_decl .annotation_decl .annotation_decl⟩,
    ⟨⟨"Annotation_decl".toList, true, .ctx .annotation_decl⟩, .nth .annotation_decl .annotation_decl⟩]
  /- kuneiform_parser.go:4834-4881 -/
  | .param_list => [
    ⟨⟨"AllParameter".toList, false, .ctxs .parameter⟩, .all .parameter .parameter .parameter⟩,
    ⟨⟨"Parameter".toList, true, .ctx .parameter⟩, .nth .parameter .parameter⟩,
    ⟨⟨"AllCOMMA".toList, false, .terms⟩, .tokens .COMMA⟩,
    ⟨⟨"COMMA".toList, true, .term⟩, .tokenNth .COMMA⟩]
  /- kuneiform_parser.go:5009-5011 -/
  | .parameter => [
    ⟨⟨"PARAM_OR_VAR".toList, false, .term⟩, .token .PARAM_OR_VAR⟩]
  /- kuneiform_parser.go:5103-5105 -/
  | .database_name => [
    ⟨⟨"IDENTIFIER".toList, false, .term⟩, .token .IDENTIFIER⟩]
  /- kuneiform_parser.go:5197-5199 -/
  | .extension_name => [
    ⟨⟨"IDENTIFIER".toList, false, .term⟩, .token .IDENTIFIER⟩]
  /- kuneiform_parser.go:5291-5293 -/
  | .ext_config_name => [
    ⟨⟨"IDENTIFIER".toList, false, .term⟩, .token .IDENTIFIER⟩]
  /- kuneiform_parser.go:5385-5387 -/
  | .table_name => [
    ⟨⟨"IDENTIFIER".toList, false, .term⟩, .token .IDENTIFIER⟩]
  /- kuneiform_parser.go:5479-5481 -/
  | .action_name => [
    ⟨⟨"IDENTIFIER".toList, false, .term⟩, .token .IDENTIFIER⟩]
  /- kuneiform_parser.go:5573-5575 -/
  | .column_name => [
    ⟨⟨"IDENTIFIER".toList, false, .term⟩, .token .IDENTIFIER⟩]
  /- kuneiform_parser.go:5670-5717 -/
  | .column_name_list => [
    ⟨⟨"AllColumn_name".toList, false, .ctxs .column_name⟩, .all .column_name .column_name .column_name⟩,
    ⟨⟨"Column_name".toList, true, .ctx .column_name⟩, .nth .column_name .column_name⟩,
    ⟨⟨"AllCOMMA".toList, false, .terms⟩, .tokens .COMMA⟩,
    ⟨⟨"COMMA".toList, true, .term⟩, .tokenNth .COMMA⟩]
  /- kuneiform_parser.go:5835-5837 -/
  | .index_name => [
    ⟨⟨"INDEX_NAME".toList, false, .term⟩, .token .INDEX_NAME⟩]
  /- kuneiform_parser.go:5929-5931 -/
  | .annotation_target_name => [
    ⟨⟨"BLOCK_VAR_OR_ANNOTATION".toList, false, .term⟩, .token .BLOCK_VAR_OR_ANNOTATION⟩]
  /- kuneiform_parser.go:6023-6025 -/
  | .annotation_attr_name => [
    ⟨⟨"IDENTIFIER".toList, false, .term⟩, .token .IDENTIFIER⟩]
  /- kuneiform_parser.go:6117-6131 -/
  | .annotation_attr_value => [
    ⟨⟨"Literal_value".toList, false, .ctx .literal_value⟩, .first .literal_value .literal_value⟩]
  /- kuneiform_parser.go:6219-6233 -/
  | .ext_config_value => [
    ⟨⟨"Literal_value".toList, false, .ctx .literal_value⟩, .first .literal_value .literal_value⟩]
  /- kuneiform_parser.go:6326-6360 -/
  | .init_decl => [
    ⟨⟨"INIT_".toList, false, .term⟩, .token .INIT_⟩,
    ⟨⟨"L_PAREN".toList, false, .term⟩, .token .L_PAREN⟩,
    ⟨⟨"R_PAREN".toList, false, .term⟩, .token .R_PAREN⟩,
    ⟨⟨"L_BRACE".toList, false, .term⟩, .token .L_BRACE⟩,
    ⟨⟨"Action_stmt_list".toList, false, .ctx .action_stmt_list⟩, .first .action_stmt_list .action_stmt_list⟩,
    ⟨⟨"R_BRACE".toList, false, .term⟩, .token .R_BRACE⟩]
  /- kuneiform_parser.go:6489-6528 -/
  | .action_stmt_list => [
    ⟨⟨"AllAction_stmt".toList, false, .ctxs .action_stmt⟩, .all .action_stmt .action_stmt .action_stmt⟩,
    ⟨⟨"Action_stmt".toList, true, .ctx .action_stmt⟩, .nth .action_stmt .action_stmt⟩]
  /- kuneiform_parser.go:6635-6665 -/
  | .action_stmt => [
    ⟨⟨"Sql_stmt".toList, false, .ctx .sql_stmt⟩, .first .sql_stmt .sql_stmt⟩,
    ⟨⟨"Call_stmt".toList, false, .ctx .call_stmt⟩, .first .call_stmt .call_stmt⟩]
  /- kuneiform_parser.go:6774-6780 -/
  | .sql_stmt => [
    ⟨⟨"SQL_STMT".toList, false, .term⟩, .token .SQL_STMT⟩,
    ⟨⟨"SCOL".toList, false, .term⟩, .token .SCOL⟩]
  /- kuneiform_parser.go:6883-6921 -/
  | .call_stmt => [
    ⟨⟨"Call_body".toList, false, .ctx .call_body⟩, .first .call_body .call_body⟩,
    ⟨⟨"SCOL".toList, false, .term⟩, .token .SCOL⟩,
    ⟨⟨"Call_receivers".toList, false, .ctx .call_receivers⟩, .first .call_receivers .call_receivers⟩,
    ⟨⟨"ASSIGN".toList, false, .term⟩, .token .ASSIGN⟩]
  /- kuneiform_parser.go:7044-7091 -/
  | .call_receivers => [
    ⟨⟨"AllVariable".toList, false, .ctxs .variable⟩, .all .variable .variable .variable⟩,
    ⟨⟨"Variable".toList, true, .ctx .variable⟩, .nth .variable .variable⟩,
    ⟨⟨"AllCOMMA".toList, false, .terms⟩, .tokens .COMMA⟩,
    ⟨⟨"COMMA".toList, true, .term⟩, .tokenNth .COMMA⟩]
  /- kuneiform_parser.go:7212-7250 -/
  | .call_body => [
    ⟨⟨"Fn_name".toList, false, .ctx .fn_name⟩, .first .fn_name .fn_name⟩,
    ⟨⟨"L_PAREN".toList, false, .term⟩, .token .L_PAREN⟩,
    ⟨⟨"Fn_arg_list".toList, false, .ctx .fn_arg_list⟩, .first .fn_arg_list .fn_arg_list⟩,
    ⟨⟨"R_PAREN".toList, false, .term⟩, .token .R_PAREN⟩]
  /- kuneiform_parser.go:7358-7360 -/
  | .variable => [
    ⟨⟨"PARAM_OR_VAR".toList, false, .term⟩, .token .PARAM_OR_VAR⟩]
  /- kuneiform_parser.go:7452-7454 -/
  | .block_var => [
    ⟨⟨"BLOCK_VAR_OR_ANNOTATION".toList, false, .term⟩, .token .BLOCK_VAR_OR_ANNOTATION⟩]
  /- kuneiform_parser.go:7548-7558 -/
  | .extension_call_name => [
    ⟨⟨"AllIDENTIFIER".toList, false, .terms⟩, .tokens .IDENTIFIER⟩,
    ⟨⟨"IDENTIFIER".toList, true, .term⟩, .tokenNth .IDENTIFIER⟩,
    ⟨⟨"PERIOD".toList, false, .term⟩, .token .PERIOD⟩]
  /- kuneiform_parser.go:7667-7697 -/
  | .fn_name => [
    ⟨⟨"Extension_call_name".toList, false, .ctx .extension_call_name⟩, .first .extension_call_name .extension_call_name⟩,
    ⟨⟨"Action_name".toList, false, .ctx .action_name⟩, .first .action_name .action_name⟩]
  /- kuneiform_parser.go:7804-7806 -/
  | .sfn_name => [
    ⟨⟨"IDENTIFIER".toList, false, .term⟩, .token .IDENTIFIER⟩]
  /- kuneiform_parser.go:7901-7948 -/
  | .fn_arg_list => [
    ⟨⟨"AllFn_arg_expr".toList, false, .ctxs .fn_arg_expr⟩, .all .fn_arg_expr .fn_arg_expr .fn_arg_expr⟩,
    ⟨⟨"Fn_arg_expr".toList, true, .ctx .fn_arg_expr⟩, .nth .fn_arg_expr .fn_arg_expr⟩,
    ⟨⟨"AllCOMMA".toList, false, .terms⟩, .tokens .COMMA⟩,
    ⟨⟨"COMMA".toList, true, .term⟩, .tokenNth .COMMA⟩]
  /- kuneiform_parser.go:8129-8336 -/
  | .fn_arg_expr => [
    ⟨⟨"Literal_value".toList, false, .ctx .literal_value⟩, .first .literal_value .literal_value⟩,
    ⟨⟨"Variable".toList, false, .ctx .variable⟩, .first .variable .variable⟩,
    ⟨⟨"Block_var".toList, false, .ctx .block_var⟩, .first .block_var .block_var⟩,
    ⟨⟨"L_PAREN".toList, false, .term⟩, .token .L_PAREN⟩,
    ⟨⟨"R_PAREN".toList, false, .term⟩, .token .R_PAREN⟩,
    ⟨⟨"AllFn_arg_expr".toList, false, .ctxs .fn_arg_expr⟩, .all .fn_arg_expr .fn_arg_expr .fn_arg_expr⟩,
    ⟨⟨"Fn_arg_expr".toList, true, .ctx .fn_arg_expr⟩, .nth .fn_arg_expr .fn_arg_expr⟩,
    ⟨⟨"MINUS".toList, false, .term⟩, .token .MINUS⟩,
    ⟨⟨"PLUS".toList, false, .term⟩, .token .PLUS⟩,
    ⟨⟨"TILDE".toList, false, .term⟩, .token .TILDE⟩,
    ⟨⟨"NOT_".toList, false, .term⟩, .token .NOT_⟩,
    ⟨⟨"Sfn_name".toList, false, .ctx .sfn_name⟩, .first .sfn_name .sfn_name⟩,
    ⟨⟨"STAR".toList, false, .term⟩, .token .STAR⟩,
    ⟨⟨"AllCOMMA".toList, false, .terms⟩, .tokens .COMMA⟩,
    ⟨⟨"COMMA".toList, true, .term⟩, .tokenNth .COMMA⟩,
    ⟨⟨"PIPE2".toList, false, .term⟩, .token .PIPE2⟩,
    ⟨⟨"DIV".toList, false, .term⟩, .token .DIV⟩,
    ⟨⟨"MOD".toList, false, .term⟩, .token .MOD⟩,
    ⟨⟨"LT2".toList, false, .term⟩, .token .LT2⟩,
    ⟨⟨"GT2".toList, false, .term⟩, .token .GT2⟩,
    ⟨⟨"AMP".toList, false, .term⟩, .token .AMP⟩,
    ⟨⟨"PIPE".toList, false, .term⟩, .token .PIPE⟩,
    ⟨⟨"LT".toList, false, .term⟩, .token .LT⟩,
    ⟨⟨"LT_EQ".toList, false, .term⟩, .token .LT_EQ⟩,
    ⟨⟨"GT".toList, false, .term⟩, .token .GT⟩,
    ⟨⟨"GT_EQ".toList, false, .term⟩, .token .GT_EQ⟩,
    ⟨⟨"ASSIGN".toList, false, .term⟩, .token .ASSIGN⟩,
    ⟨⟨"EQ".toList, false, .term⟩, .token .EQ⟩,
    ⟨⟨"SQL_NOT_EQ1".toList, false, .term⟩, .token .SQL_NOT_EQ1⟩,
    ⟨⟨"SQL_NOT_EQ2".toList, false, .term⟩, .token .SQL_NOT_EQ2⟩,
    ⟨⟨"AND_".toList, false, .term⟩, .token .AND_⟩,
    ⟨⟨"OR_".toList, false, .term⟩, .token .OR_⟩]

/-- The methods that the interfaces ask for, `type IXContext interface`. -/
def ifaceMethods : Rule → List Method
  | .source_unit => [
    .embedded,
    .getParser,
    .getter ⟨"Database_directive".toList, false, .ctx .database_directive⟩,
    .getter ⟨"SCOL".toList, false, .term⟩,
    .getter ⟨"EOF".toList, false, .term⟩,
    .getter ⟨"AllExtension_directive".toList, false, .ctxs .extension_directive⟩,
    .getter ⟨"Extension_directive".toList, true, .ctx .extension_directive⟩,
    .getter ⟨"AllTable_decl".toList, false, .ctxs .table_decl⟩,
    .getter ⟨"Table_decl".toList, true, .ctx .table_decl⟩,
    .getter ⟨"AllAction_decl".toList, false, .ctxs .action_decl⟩,
    .getter ⟨"Action_decl".toList, true, .ctx .action_decl⟩,
    .getter ⟨"AllInit_decl".toList, false, .ctxs .init_decl⟩,
    .getter ⟨"Init_decl".toList, true, .ctx .init_decl⟩,
    .marker .source_unit]
  | .database_directive => [
    .embedded,
    .getParser,
    .getter ⟨"DATABASE_".toList, false, .term⟩,
    .getter ⟨"Database_name".toList, false, .ctx .database_name⟩,
    .marker .database_directive]
  | .extension_directive => [
    .embedded,
    .getParser,
    .getter ⟨"USE_".toList, false, .term⟩,
    .getter ⟨"AllExtension_name".toList, false, .ctxs .extension_name⟩,
    .getter ⟨"Extension_name".toList, true, .ctx .extension_name⟩,
    .getter ⟨"AS_".toList, false, .term⟩,
    .getter ⟨"SCOL".toList, false, .term⟩,
    .getter ⟨"L_BRACE".toList, false, .term⟩,
    .getter ⟨"Ext_config_list".toList, false, .ctx .ext_config_list⟩,
    .getter ⟨"R_BRACE".toList, false, .term⟩,
    .marker .extension_directive]
  | .ext_config_list => [
    .embedded,
    .getParser,
    .getter ⟨"AllExt_config".toList, false, .ctxs .ext_config⟩,
    .getter ⟨"Ext_config".toList, true, .ctx .ext_config⟩,
    .getter ⟨"AllCOMMA".toList, false, .terms⟩,
    .getter ⟨"COMMA".toList, true, .term⟩,
    .marker .ext_config_list]
  | .ext_config => [
    .embedded,
    .getParser,
    .getter ⟨"Ext_config_name".toList, false, .ctx .ext_config_name⟩,
    .getter ⟨"COL".toList, false, .term⟩,
    .getter ⟨"Ext_config_value".toList, false, .ctx .ext_config_value⟩,
    .marker .ext_config]
  | .annotation_decl => [
    .embedded,
    .getParser,
    .getter ⟨"Annotation_target_name".toList, false, .ctx .annotation_target_name⟩,
    .getter ⟨"L_PAREN".toList, false, .term⟩,
    .getter ⟨"Annotation_attr_list".toList, false, .ctx .annotation_attr_list⟩,
    .getter ⟨"R_PAREN".toList, false, .term⟩,
    .marker .annotation_decl]
  | .annotation_attr_list => [
    .embedded,
    .getParser,
    .getter ⟨"AllAnnotation_attr".toList, false, .ctxs .annotation_attr⟩,
    .getter ⟨"Annotation_attr".toList, true, .ctx .annotation_attr⟩,
    .getter ⟨"AllCOMMA".toList, false, .terms⟩,
    .getter ⟨"COMMA".toList, true, .term⟩,
    .marker .annotation_attr_list]
  | .annotation_attr => [
    .embedded,
    .getParser,
    .getter ⟨"Annotation_attr_name".toList, false, .ctx .annotation_attr_name⟩,
    .getter ⟨"ASSIGN".toList, false, .term⟩,
    .getter ⟨"Annotation_attr_value".toList, false, .ctx .annotation_attr_value⟩,
    .marker .annotation_attr]
  | .table_decl => [
    .embedded,
    .getParser,
    .getter ⟨"TABLE_".toList, false, .term⟩,
    .getter ⟨"Table_name".toList, false, .ctx .table_name⟩,
    .getter ⟨"L_BRACE".toList, false, .term⟩,
    .getter ⟨"Column_def_list".toList, false, .ctx .column_def_list⟩,
    .getter ⟨"R_BRACE".toList, false, .term⟩,
    .getter ⟨"AllCOMMA".toList, false, .terms⟩,
    .getter ⟨"COMMA".toList, true, .term⟩,
    .getter ⟨"AllIndex_def".toList, false, .ctxs .index_def⟩,
    .getter ⟨"Index_def".toList, true, .ctx .index_def⟩,
    .getter ⟨"AllForeign_key_def".toList, false, .ctxs .foreign_key_def⟩,
    .getter ⟨"Foreign_key_def".toList, true, .ctx .foreign_key_def⟩,
    .marker .table_decl]
  | .column_def => [
    .embedded,
    .getParser,
    .getter ⟨"Column_name".toList, false, .ctx .column_name⟩,
    .getter ⟨"Column_type".toList, false, .ctx .column_type⟩,
    .getter ⟨"AllColumn_constraint".toList, false, .ctxs .column_constraint⟩,
    .getter ⟨"Column_constraint".toList, true, .ctx .column_constraint⟩,
    .marker .column_def]
  | .column_def_list => [
    .embedded,
    .getParser,
    .getter ⟨"AllColumn_def".toList, false, .ctxs .column_def⟩,
    .getter ⟨"Column_def".toList, true, .ctx .column_def⟩,
    .getter ⟨"AllCOMMA".toList, false, .terms⟩,
    .getter ⟨"COMMA".toList, true, .term⟩,
    .marker .column_def_list]
  | .column_type => [
    .embedded,
    .getParser,
    .getter ⟨"INT_".toList, false, .term⟩,
    .getter ⟨"TEXT_".toList, false, .term⟩,
    .getter ⟨"BLOB_".toList, false, .term⟩,
    .marker .column_type]
  | .column_constraint => [
    .embedded,
    .getParser,
    .getter ⟨"PRIMARY_".toList, false, .term⟩,
    .getter ⟨"NOT_NULL_".toList, false, .term⟩,
    .getter ⟨"UNIQUE_".toList, false, .term⟩,
    .getter ⟨"DEFAULT_".toList, false, .term⟩,
    .getter ⟨"L_PAREN".toList, false, .term⟩,
    .getter ⟨"Literal_value".toList, false, .ctx .literal_value⟩,
    .getter ⟨"R_PAREN".toList, false, .term⟩,
    .getter ⟨"MIN_".toList, false, .term⟩,
    .getter ⟨"Number_value".toList, false, .ctx .number_value⟩,
    .getter ⟨"MAX_".toList, false, .term⟩,
    .getter ⟨"MIN_LEN_".toList, false, .term⟩,
    .getter ⟨"MAX_LEN_".toList, false, .term⟩,
    .marker .column_constraint]
  | .literal_value => [
    .embedded,
    .getParser,
    .getter ⟨"STRING_LITERAL".toList, false, .term⟩,
    .getter ⟨"UNSIGNED_NUMBER_LITERAL".toList, false, .term⟩,
    .marker .literal_value]
  | .number_value => [
    .embedded,
    .getParser,
    .getter ⟨"UNSIGNED_NUMBER_LITERAL".toList, false, .term⟩,
    .marker .number_value]
  | .index_def => [
    .embedded,
    .getParser,
    .getter ⟨"Index_name".toList, false, .ctx .index_name⟩,
    .getter ⟨"L_PAREN".toList, false, .term⟩,
    .getter ⟨"Column_name_list".toList, false, .ctx .column_name_list⟩,
    .getter ⟨"R_PAREN".toList, false, .term⟩,
    .getter ⟨"UNIQUE_".toList, false, .term⟩,
    .getter ⟨"INDEX_".toList, false, .term⟩,
    .getter ⟨"PRIMARY_".toList, false, .term⟩,
    .marker .index_def]
  | .foreign_key_action => [
    .embedded,
    .getParser,
    .getter ⟨"ACTION_ON_UPDATE_".toList, false, .term⟩,
    .getter ⟨"ACTION_ON_DELETE_".toList, false, .term⟩,
    .getter ⟨"ACTION_DO_NO_ACTION_".toList, false, .term⟩,
    .getter ⟨"ACTION_DO_RESTRICT_".toList, false, .term⟩,
    .getter ⟨"ACTION_DO_SET_NULL_".toList, false, .term⟩,
    .getter ⟨"ACTION_DO_SET_DEFAULT_".toList, false, .term⟩,
    .getter ⟨"ACTION_DO_CASCADE_".toList, false, .term⟩,
    .getter ⟨"ACTION_DO_".toList, false, .term⟩,
    .marker .foreign_key_action]
  | .foreign_key_def => [
    .embedded,
    .getParser,
    .getter ⟨"AllL_PAREN".toList, false, .terms⟩,
    .getter ⟨"L_PAREN".toList, true, .term⟩,
    .getter ⟨"AllColumn_name_list".toList, false, .ctxs .column_name_list⟩,
    .getter ⟨"Column_name_list".toList, true, .ctx .column_name_list⟩,
    .getter ⟨"AllR_PAREN".toList, false, .terms⟩,
    .getter ⟨"R_PAREN".toList, true, .term⟩,
    .getter ⟨"Table_name".toList, false, .ctx .table_name⟩,
    .getter ⟨"FOREIGN_KEY_".toList, false, .term⟩,
    .getter ⟨"FOREIGN_KEY_ABBR_".toList, false, .term⟩,
    .getter ⟨"REFERENCES_".toList, false, .term⟩,
    .getter ⟨"REFERENCES_ABBR_".toList, false, .term⟩,
    .getter ⟨"AllForeign_key_action".toList, false, .ctxs .foreign_key_action⟩,
    .getter ⟨"Foreign_key_action".toList, true, .ctx .foreign_key_action⟩,
    .marker .foreign_key_def]
  | .action_visibility => [
    .embedded,
    .getParser,
    .getter ⟨"PUBLIC_".toList, false, .term⟩,
    .getter ⟨"PRIVATE_".toList, false, .term⟩,
    .marker .action_visibility]
  | .action_mutability => [
    .embedded,
    .getParser,
    .getter ⟨"VIEW_".toList, false, .term⟩,
    .marker .action_mutability]
  | .action_auxiliary => [
    .embedded,
    .getParser,
    .getter ⟨"OWNER_".toList, false, .term⟩,
    .marker .action_auxiliary]
  | .action_attr_list => [
    .embedded,
    .getParser,
    .getter ⟨"AllAction_visibility".toList, false, .ctxs .action_visibility⟩,
    .getter ⟨"Action_visibility".toList, true, .ctx .action_visibility⟩,
    .getter ⟨"AllAction_mutability".toList, false, .ctxs .action_mutability⟩,
    .getter ⟨"Action_mutability".toList, true, .ctx .action_mutability⟩,
    .getter ⟨"AllAction_auxiliary".toList, false, .ctxs .action_auxiliary⟩,
    .getter ⟨"Action_auxiliary".toList, true, .ctx .action_auxiliary⟩,
    .marker .action_attr_list]
  | .action_decl => [
    .embedded,
    .getParser,
    .getter ⟨"ACTION_".toList, false, .term⟩,
    .getter ⟨"Action_name".toList, false, .ctx .action_name⟩,
    .getter ⟨"L_PAREN".toList, false, .term⟩,
    .getter ⟨"Param_list".toList, false, .ctx .param_list⟩,
    .getter ⟨"R_PAREN".toList, false, .term⟩,
    .getter ⟨"Action_attr_list".toList, false, .ctx .action_attr_list⟩,
    .getter ⟨"L_BRACE".toList, false, .term⟩,
    .getter ⟨"Action_stmt_list".toList, false, .ctx .action_stmt_list⟩,
    .getter ⟨"R_BRACE".toList, false, .term⟩,
    .getter ⟨"AllAnnotation_decl".toList, false, .ctxs .annotation_decl⟩,
    .getter ⟨"Annotation_decl".toList, true, .ctx .annotation_decl⟩,
    .marker .action_decl]
  | .param_list => [
    .embedded,
    .getParser,
    .getter ⟨"AllParameter".toList, false, .ctxs .parameter⟩,
    .getter ⟨"Parameter".toList, true, .ctx .parameter⟩,
    .getter ⟨"AllCOMMA".toList, false, .terms⟩,
    .getter ⟨"COMMA".toList, true, .term⟩,
    .marker .param_list]
  | .parameter => [
    .embedded,
    .getParser,
    .getter ⟨"PARAM_OR_VAR".toList, false, .term⟩,
    .marker .parameter]
  | .database_name => [
    .embedded,
    .getParser,
    .getter ⟨"IDENTIFIER".toList, false, .term⟩,
    .marker .database_name]
  | .extension_name => [
    .embedded,
    .getParser,
    .getter ⟨"IDENTIFIER".toList, false, .term⟩,
    .marker .extension_name]
  | .ext_config_name => [
    .embedded,
    .getParser,
    .getter ⟨"IDENTIFIER".toList, false, .term⟩,
    .marker .ext_config_name]
  | .table_name => [
    .embedded,
    .getParser,
    .getter ⟨"IDENTIFIER".toList, false, .term⟩,
    .marker .table_name]
  | .action_name => [
    .embedded,
    .getParser,
    .getter ⟨"IDENTIFIER".toList, false, .term⟩,
    .marker .action_name]
  | .column_name => [
    .embedded,
    .getParser,
    .getter ⟨"IDENTIFIER".toList, false, .term⟩,
    .marker .column_name]
  | .column_name_list => [
    .embedded,
    .getParser,
    .getter ⟨"AllColumn_name".toList, false, .ctxs .column_name⟩,
    .getter ⟨"Column_name".toList, true, .ctx .column_name⟩,
    .getter ⟨"AllCOMMA".toList, false, .terms⟩,
    .getter ⟨"COMMA".toList, true, .term⟩,
    .marker .column_name_list]
  | .index_name => [
    .embedded,
    .getParser,
    .getter ⟨"INDEX_NAME".toList, false, .term⟩,
    .marker .index_name]
  | .annotation_target_name => [
    .embedded,
    .getParser,
    .getter ⟨"BLOCK_VAR_OR_ANNOTATION".toList, false, .term⟩,
    .marker .annotation_target_name]
  | .annotation_attr_name => [
    .embedded,
    .getParser,
    .getter ⟨"IDENTIFIER".toList, false, .term⟩,
    .marker .annotation_attr_name]
  | .annotation_attr_value => [
    .embedded,
    .getParser,
    .getter ⟨"Literal_value".toList, false, .ctx .literal_value⟩,
    .marker .annotation_attr_value]
  | .ext_config_value => [
    .embedded,
    .getParser,
    .getter ⟨"Literal_value".toList, false, .ctx .literal_value⟩,
    .marker .ext_config_value]
  | .init_decl => [
    .embedded,
    .getParser,
    .getter ⟨"INIT_".toList, false, .term⟩,
    .getter ⟨"L_PAREN".toList, false, .term⟩,
    .getter ⟨"R_PAREN".toList, false, .term⟩,
    .getter ⟨"L_BRACE".toList, false, .term⟩,
    .getter ⟨"Action_stmt_list".toList, false, .ctx .action_stmt_list⟩,
    .getter ⟨"R_BRACE".toList, false, .term⟩,
    .marker .init_decl]
  | .action_stmt_list => [
    .embedded,
    .getParser,
    .getter ⟨"AllAction_stmt".toList, false, .ctxs .action_stmt⟩,
    .getter ⟨"Action_stmt".toList, true, .ctx .action_stmt⟩,
    .marker .action_stmt_list]
  | .action_stmt => [
    .embedded,
    .getParser,
    .getter ⟨"Sql_stmt".toList, false, .ctx .sql_stmt⟩,
    .getter ⟨"Call_stmt".toList, false, .ctx .call_stmt⟩,
    .marker .action_stmt]
  | .sql_stmt => [
    .embedded,
    .getParser,
    .getter ⟨"SQL_STMT".toList, false, .term⟩,
    .getter ⟨"SCOL".toList, false, .term⟩,
    .marker .sql_stmt]
  | .call_stmt => [
    .embedded,
    .getParser,
    .getter ⟨"Call_body".toList, false, .ctx .call_body⟩,
    .getter ⟨"SCOL".toList, false, .term⟩,
    .getter ⟨"Call_receivers".toList, false, .ctx .call_receivers⟩,
    .getter ⟨"ASSIGN".toList, false, .term⟩,
    .marker .call_stmt]
  | .call_receivers => [
    .embedded,
    .getParser,
    .getter ⟨"AllVariable".toList, false, .ctxs .variable⟩,
    .getter ⟨"Variable".toList, true, .ctx .variable⟩,
    .getter ⟨"AllCOMMA".toList, false, .terms⟩,
    .getter ⟨"COMMA".toList, true, .term⟩,
    .marker .call_receivers]
  | .call_body => [
    .embedded,
    .getParser,
    .getter ⟨"Fn_name".toList, false, .ctx .fn_name⟩,
    .getter ⟨"L_PAREN".toList, false, .term⟩,
    .getter ⟨"Fn_arg_list".toList, false, .ctx .fn_arg_list⟩,
    .getter ⟨"R_PAREN".toList, false, .term⟩,
    .marker .call_body]
  | .variable => [
    .embedded,
    .getParser,
    .getter ⟨"PARAM_OR_VAR".toList, false, .term⟩,
    .marker .variable]
  | .block_var => [
    .embedded,
    .getParser,
    .getter ⟨"BLOCK_VAR_OR_ANNOTATION".toList, false, .term⟩,
    .marker .block_var]
  | .extension_call_name => [
    .embedded,
    .getParser,
    .getter ⟨"AllIDENTIFIER".toList, false, .terms⟩,
    .getter ⟨"IDENTIFIER".toList, true, .term⟩,
    .getter ⟨"PERIOD".toList, false, .term⟩,
    .marker .extension_call_name]
  | .fn_name => [
    .embedded,
    .getParser,
    .getter ⟨"Extension_call_name".toList, false, .ctx .extension_call_name⟩,
    .getter ⟨"Action_name".toList, false, .ctx .action_name⟩,
    .marker .fn_name]
  | .sfn_name => [
    .embedded,
    .getParser,
    .getter ⟨"IDENTIFIER".toList, false, .term⟩,
    .marker .sfn_name]
  | .fn_arg_list => [
    .embedded,
    .getParser,
    .getter ⟨"AllFn_arg_expr".toList, false, .ctxs .fn_arg_expr⟩,
    .getter ⟨"Fn_arg_expr".toList, true, .ctx .fn_arg_expr⟩,
    .getter ⟨"AllCOMMA".toList, false, .terms⟩,
    .getter ⟨"COMMA".toList, true, .term⟩,
    .marker .fn_arg_list]
  | .fn_arg_expr => [
    .embedded,
    .getParser,
    .label "GetElevate_expr".toList,
    .label "GetUnary_expr".toList,
    .label "SetElevate_expr".toList,
    .label "SetUnary_expr".toList,
    .getter ⟨"Literal_value".toList, false, .ctx .literal_value⟩,
    .getter ⟨"Variable".toList, false, .ctx .variable⟩,
    .getter ⟨"Block_var".toList, false, .ctx .block_var⟩,
    .getter ⟨"L_PAREN".toList, false, .term⟩,
    .getter ⟨"R_PAREN".toList, false, .term⟩,
    .getter ⟨"AllFn_arg_expr".toList, false, .ctxs .fn_arg_expr⟩,
    .getter ⟨"Fn_arg_expr".toList, true, .ctx .fn_arg_expr⟩,
    .getter ⟨"MINUS".toList, false, .term⟩,
    .getter ⟨"PLUS".toList, false, .term⟩,
    .getter ⟨"TILDE".toList, false, .term⟩,
    .getter ⟨"NOT_".toList, false, .term⟩,
    .getter ⟨"Sfn_name".toList, false, .ctx .sfn_name⟩,
    .getter ⟨"STAR".toList, false, .term⟩,
    .getter ⟨"AllCOMMA".toList, false, .terms⟩,
    .getter ⟨"COMMA".toList, true, .term⟩,
    .getter ⟨"PIPE2".toList, false, .term⟩,
    .getter ⟨"DIV".toList, false, .term⟩,
    .getter ⟨"MOD".toList, false, .term⟩,
    .getter ⟨"LT2".toList, false, .term⟩,
    .getter ⟨"GT2".toList, false, .term⟩,
    .getter ⟨"AMP".toList, false, .term⟩,
    .getter ⟨"PIPE".toList, false, .term⟩,
    .getter ⟨"LT".toList, false, .term⟩,
    .getter ⟨"LT_EQ".toList, false, .term⟩,
    .getter ⟨"GT".toList, false, .term⟩,
    .getter ⟨"GT_EQ".toList, false, .term⟩,
    .getter ⟨"ASSIGN".toList, false, .term⟩,
    .getter ⟨"EQ".toList, false, .term⟩,
    .getter ⟨"SQL_NOT_EQ1".toList, false, .term⟩,
    .getter ⟨"SQL_NOT_EQ2".toList, false, .term⟩,
    .getter ⟨"AND_".toList, false, .term⟩,
    .getter ⟨"OR_".toList, false, .term⟩,
    .marker .fn_arg_expr]

/-- The marker methods, `func (*XContext) IsXContext() {}`. -/
def markerOf : Rule → Rule
  | .source_unit => .source_unit
  | .database_directive => .database_directive
  | .extension_directive => .extension_directive
  | .ext_config_list => .ext_config_list
  | .ext_config => .ext_config
  | .annotation_decl => .annotation_decl
  | .annotation_attr_list => .annotation_attr_list
  | .annotation_attr => .annotation_attr
  | .table_decl => .table_decl
  | .column_def => .column_def
  | .column_def_list => .column_def_list
  | .column_type => .column_type
  | .column_constraint => .column_constraint
  | .literal_value => .literal_value
  | .number_value => .number_value
  | .index_def => .index_def
  | .foreign_key_action => .foreign_key_action
  | .foreign_key_def => .foreign_key_def
  | .action_visibility => .action_visibility
  | .action_mutability => .action_mutability
  | .action_auxiliary => .action_auxiliary
  | .action_attr_list => .action_attr_list
  | .action_decl => .action_decl
  | .param_list => .param_list
  | .parameter => .parameter
  | .database_name => .database_name
  | .extension_name => .extension_name
  | .ext_config_name => .ext_config_name
  | .table_name => .table_name
  | .action_name => .action_name
  | .column_name => .column_name
  | .column_name_list => .column_name_list
  | .index_name => .index_name
  | .annotation_target_name => .annotation_target_name
  | .annotation_attr_name => .annotation_attr_name
  | .annotation_attr_value => .annotation_attr_value
  | .ext_config_value => .ext_config_value
  | .init_decl => .init_decl
  | .action_stmt_list => .action_stmt_list
  | .action_stmt => .action_stmt
  | .sql_stmt => .sql_stmt
  | .call_stmt => .call_stmt
  | .call_receivers => .call_receivers
  | .call_body => .call_body
  | .variable => .variable
  | .block_var => .block_var
  | .extension_call_name => .extension_call_name
  | .fn_name => .fn_name
  | .sfn_name => .sfn_name
  | .fn_arg_list => .fn_arg_list
  | .fn_arg_expr => .fn_arg_expr

/-- The getters and setters of labels. -/
def labelsOf : Rule → List Str
  | .fn_arg_expr => ["GetElevate_expr".toList, "GetUnary_expr".toList, "SetElevate_expr".toList, "SetUnary_expr".toList]
  | _ => []

/-- The visitor method that `Accept` calls if the visitor is a
`KuneiformParserVisitor`: `VisitX(s)`. -/
def acceptTarget : Rule → Rule
  | .source_unit => .source_unit
  | .database_directive => .database_directive
  | .extension_directive => .extension_directive
  | .ext_config_list => .ext_config_list
  | .ext_config => .ext_config
  | .annotation_decl => .annotation_decl
  | .annotation_attr_list => .annotation_attr_list
  | .annotation_attr => .annotation_attr
  | .table_decl => .table_decl
  | .column_def => .column_def
  | .column_def_list => .column_def_list
  | .column_type => .column_type
  | .column_constraint => .column_constraint
  | .literal_value => .literal_value
  | .number_value => .number_value
  | .index_def => .index_def
  | .foreign_key_action => .foreign_key_action
  | .foreign_key_def => .foreign_key_def
  | .action_visibility => .action_visibility
  | .action_mutability => .action_mutability
  | .action_auxiliary => .action_auxiliary
  | .action_attr_list => .action_attr_list
  | .action_decl => .action_decl
  | .param_list => .param_list
  | .parameter => .parameter
  | .database_name => .database_name
  | .extension_name => .extension_name
  | .ext_config_name => .ext_config_name
  | .table_name => .table_name
  | .action_name => .action_name
  | .column_name => .column_name
  | .column_name_list => .column_name_list
  | .index_name => .index_name
  | .annotation_target_name => .annotation_target_name
  | .annotation_attr_name => .annotation_attr_name
  | .annotation_attr_value => .annotation_attr_value
  | .ext_config_value => .ext_config_value
  | .init_decl => .init_decl
  | .action_stmt_list => .action_stmt_list
  | .action_stmt => .action_stmt
  | .sql_stmt => .sql_stmt
  | .call_stmt => .call_stmt
  | .call_receivers => .call_receivers
  | .call_body => .call_body
  | .variable => .variable
  | .block_var => .block_var
  | .extension_call_name => .extension_call_name
  | .fn_name => .fn_name
  | .sfn_name => .sfn_name
  | .fn_arg_list => .fn_arg_list
  | .fn_arg_expr => .fn_arg_expr

/-- kuneiformparser_visitor.go: the parameter types of the methods `VisitX` of
the interface `KuneiformParserVisitor`. -/
def visitorParam : Rule → Rule
  | .source_unit => .source_unit
  | .database_directive => .database_directive
  | .extension_directive => .extension_directive
  | .ext_config_list => .ext_config_list
  | .ext_config => .ext_config
  | .annotation_decl => .annotation_decl
  | .annotation_attr_list => .annotation_attr_list
  | .annotation_attr => .annotation_attr
  | .table_decl => .table_decl
  | .column_def => .column_def
  | .column_def_list => .column_def_list
  | .column_type => .column_type
  | .column_constraint => .column_constraint
  | .literal_value => .literal_value
  | .number_value => .number_value
  | .index_def => .index_def
  | .foreign_key_action => .foreign_key_action
  | .foreign_key_def => .foreign_key_def
  | .action_visibility => .action_visibility
  | .action_mutability => .action_mutability
  | .action_auxiliary => .action_auxiliary
  | .action_attr_list => .action_attr_list
  | .action_decl => .action_decl
  | .param_list => .param_list
  | .parameter => .parameter
  | .database_name => .database_name
  | .extension_name => .extension_name
  | .ext_config_name => .ext_config_name
  | .table_name => .table_name
  | .action_name => .action_name
  | .column_name => .column_name
  | .column_name_list => .column_name_list
  | .index_name => .index_name
  | .annotation_target_name => .annotation_target_name
  | .annotation_attr_name => .annotation_attr_name
  | .annotation_attr_value => .annotation_attr_value
  | .ext_config_value => .ext_config_value
  | .init_decl => .init_decl
  | .action_stmt_list => .action_stmt_list
  | .action_stmt => .action_stmt
  | .sql_stmt => .sql_stmt
  | .call_stmt => .call_stmt
  | .call_receivers => .call_receivers
  | .call_body => .call_body
  | .variable => .variable
  | .block_var => .block_var
  | .extension_call_name => .extension_call_name
  | .fn_name => .fn_name
  | .sfn_name => .sfn_name
  | .fn_arg_list => .fn_arg_list
  | .fn_arg_expr => .fn_arg_expr

/-- kuneiformparser_base_visitor.go: the parameter types of the methods `VisitX`
of `BaseKuneiformParserVisitor`, which all return `v.VisitChildren(ctx)`. -/
def baseParam : Rule → Rule
  | .source_unit => .source_unit
  | .database_directive => .database_directive
  | .extension_directive => .extension_directive
  | .ext_config_list => .ext_config_list
  | .ext_config => .ext_config
  | .annotation_decl => .annotation_decl
  | .annotation_attr_list => .annotation_attr_list
  | .annotation_attr => .annotation_attr
  | .table_decl => .table_decl
  | .column_def => .column_def
  | .column_def_list => .column_def_list
  | .column_type => .column_type
  | .column_constraint => .column_constraint
  | .literal_value => .literal_value
  | .number_value => .number_value
  | .index_def => .index_def
  | .foreign_key_action => .foreign_key_action
  | .foreign_key_def => .foreign_key_def
  | .action_visibility => .action_visibility
  | .action_mutability => .action_mutability
  | .action_auxiliary => .action_auxiliary
  | .action_attr_list => .action_attr_list
  | .action_decl => .action_decl
  | .param_list => .param_list
  | .parameter => .parameter
  | .database_name => .database_name
  | .extension_name => .extension_name
  | .ext_config_name => .ext_config_name
  | .table_name => .table_name
  | .action_name => .action_name
  | .column_name => .column_name
  | .column_name_list => .column_name_list
  | .index_name => .index_name
  | .annotation_target_name => .annotation_target_name
  | .annotation_attr_name => .annotation_attr_name
  | .annotation_attr_value => .annotation_attr_value
  | .ext_config_value => .ext_config_value
  | .init_decl => .init_decl
  | .action_stmt_list => .action_stmt_list
  | .action_stmt => .action_stmt
  | .sql_stmt => .sql_stmt
  | .call_stmt => .call_stmt
  | .call_receivers => .call_receivers
  | .call_body => .call_body
  | .variable => .variable
  | .block_var => .block_var
  | .extension_call_name => .extension_call_name
  | .fn_name => .fn_name
  | .sfn_name => .sfn_name
  | .fn_arg_list => .fn_arg_list
  | .fn_arg_expr => .fn_arg_expr

/-- `func NewXContext`: the type that is made, and its rule index. -/
def newContext : Rule → Rule × Rule
  | .source_unit => (.source_unit, .source_unit)
  | .database_directive => (.database_directive, .database_directive)
  | .extension_directive => (.extension_directive, .extension_directive)
  | .ext_config_list => (.ext_config_list, .ext_config_list)
  | .ext_config => (.ext_config, .ext_config)
  | .annotation_decl => (.annotation_decl, .annotation_decl)
  | .annotation_attr_list => (.annotation_attr_list, .annotation_attr_list)
  | .annotation_attr => (.annotation_attr, .annotation_attr)
  | .table_decl => (.table_decl, .table_decl)
  | .column_def => (.column_def, .column_def)
  | .column_def_list => (.column_def_list, .column_def_list)
  | .column_type => (.column_type, .column_type)
  | .column_constraint => (.column_constraint, .column_constraint)
  | .literal_value => (.literal_value, .literal_value)
  | .number_value => (.number_value, .number_value)
  | .index_def => (.index_def, .index_def)
  | .foreign_key_action => (.foreign_key_action, .foreign_key_action)
  | .foreign_key_def => (.foreign_key_def, .foreign_key_def)
  | .action_visibility => (.action_visibility, .action_visibility)
  | .action_mutability => (.action_mutability, .action_mutability)
  | .action_auxiliary => (.action_auxiliary, .action_auxiliary)
  | .action_attr_list => (.action_attr_list, .action_attr_list)
  | .action_decl => (.action_decl, .action_decl)
  | .param_list => (.param_list, .param_list)
  | .parameter => (.parameter, .parameter)
  | .database_name => (.database_name, .database_name)
  | .extension_name => (.extension_name, .extension_name)
  | .ext_config_name => (.ext_config_name, .ext_config_name)
  | .table_name => (.table_name, .table_name)
  | .action_name => (.action_name, .action_name)
  | .column_name => (.column_name, .column_name)
  | .column_name_list => (.column_name_list, .column_name_list)
  | .index_name => (.index_name, .index_name)
  | .annotation_target_name => (.annotation_target_name, .annotation_target_name)
  | .annotation_attr_name => (.annotation_attr_name, .annotation_attr_name)
  | .annotation_attr_value => (.annotation_attr_value, .annotation_attr_value)
  | .ext_config_value => (.ext_config_value, .ext_config_value)
  | .init_decl => (.init_decl, .init_decl)
  | .action_stmt_list => (.action_stmt_list, .action_stmt_list)
  | .action_stmt => (.action_stmt, .action_stmt)
  | .sql_stmt => (.sql_stmt, .sql_stmt)
  | .call_stmt => (.call_stmt, .call_stmt)
  | .call_receivers => (.call_receivers, .call_receivers)
  | .call_body => (.call_body, .call_body)
  | .variable => (.variable, .variable)
  | .block_var => (.block_var, .block_var)
  | .extension_call_name => (.extension_call_name, .extension_call_name)
  | .fn_name => (.fn_name, .fn_name)
  | .sfn_name => (.sfn_name, .sfn_name)
  | .fn_arg_list => (.fn_arg_list, .fn_arg_list)
  | .fn_arg_expr => (.fn_arg_expr, .fn_arg_expr)

/-- The rule functions: the constructor that is called, and the rule index given
to `EnterRule` (`EnterRecursionRule` for expressions, kuneiform_parser.go:8357-8366). -/
def ruleFunction : Rule → Rule × Rule
  | .source_unit => (.source_unit, .source_unit)
  | .database_directive => (.database_directive, .database_directive)
  | .extension_directive => (.extension_directive, .extension_directive)
  | .ext_config_list => (.ext_config_list, .ext_config_list)
  | .ext_config => (.ext_config, .ext_config)
  | .annotation_decl => (.annotation_decl, .annotation_decl)
  | .annotation_attr_list => (.annotation_attr_list, .annotation_attr_list)
  | .annotation_attr => (.annotation_attr, .annotation_attr)
  | .table_decl => (.table_decl, .table_decl)
  | .column_def => (.column_def, .column_def)
  | .column_def_list => (.column_def_list, .column_def_list)
  | .column_type => (.column_type, .column_type)
  | .column_constraint => (.column_constraint, .column_constraint)
  | .literal_value => (.literal_value, .literal_value)
  | .number_value => (.number_value, .number_value)
  | .index_def => (.index_def, .index_def)
  | .foreign_key_action => (.foreign_key_action, .foreign_key_action)
  | .foreign_key_def => (.foreign_key_def, .foreign_key_def)
  | .action_visibility => (.action_visibility, .action_visibility)
  | .action_mutability => (.action_mutability, .action_mutability)
  | .action_auxiliary => (.action_auxiliary, .action_auxiliary)
  | .action_attr_list => (.action_attr_list, .action_attr_list)
  | .action_decl => (.action_decl, .action_decl)
  | .param_list => (.param_list, .param_list)
  | .parameter => (.parameter, .parameter)
  | .database_name => (.database_name, .database_name)
  | .extension_name => (.extension_name, .extension_name)
  | .ext_config_name => (.ext_config_name, .ext_config_name)
  | .table_name => (.table_name, .table_name)
  | .action_name => (.action_name, .action_name)
  | .column_name => (.column_name, .column_name)
  | .column_name_list => (.column_name_list, .column_name_list)
  | .index_name => (.index_name, .index_name)
  | .annotation_target_name => (.annotation_target_name, .annotation_target_name)
  | .annotation_attr_name => (.annotation_attr_name, .annotation_attr_name)
  | .annotation_attr_value => (.annotation_attr_value, .annotation_attr_value)
  | .ext_config_value => (.ext_config_value, .ext_config_value)
  | .init_decl => (.init_decl, .init_decl)
  | .action_stmt_list => (.action_stmt_list, .action_stmt_list)
  | .action_stmt => (.action_stmt, .action_stmt)
  | .sql_stmt => (.sql_stmt, .sql_stmt)
  | .call_stmt => (.call_stmt, .call_stmt)
  | .call_receivers => (.call_receivers, .call_receivers)
  | .call_body => (.call_body, .call_body)
  | .variable => (.variable, .variable)
  | .block_var => (.block_var, .block_var)
  | .extension_call_name => (.extension_call_name, .extension_call_name)
  | .fn_name => (.fn_name, .fn_name)
  | .sfn_name => (.sfn_name, .sfn_name)
  | .fn_arg_list => (.fn_arg_list, .fn_arg_list)
  | .fn_arg_expr => (.fn_arg_expr, .fn_arg_expr)

/-- kuneiform_parser.go:62-76 `staticData.RuleNames`, with a capital letter, as
in the names of Go methods. -/
def Rule.goName : Rule → Str
  | .source_unit => "Source_unit".toList
  | .database_directive => "Database_directive".toList
  | .extension_directive => "Extension_directive".toList
  | .ext_config_list => "Ext_config_list".toList
  | .ext_config => "Ext_config".toList
  | .annotation_decl => "Annotation_decl".toList
  | .annotation_attr_list => "Annotation_attr_list".toList
  | .annotation_attr => "Annotation_attr".toList
  | .table_decl => "Table_decl".toList
  | .column_def => "Column_def".toList
  | .column_def_list => "Column_def_list".toList
  | .column_type => "Column_type".toList
  | .column_constraint => "Column_constraint".toList
  | .literal_value => "Literal_value".toList
  | .number_value => "Number_value".toList
  | .index_def => "Index_def".toList
  | .foreign_key_action => "Foreign_key_action".toList
  | .foreign_key_def => "Foreign_key_def".toList
  | .action_visibility => "Action_visibility".toList
  | .action_mutability => "Action_mutability".toList
  | .action_auxiliary => "Action_auxiliary".toList
  | .action_attr_list => "Action_attr_list".toList
  | .action_decl => "Action_decl".toList
  | .param_list => "Param_list".toList
  | .parameter => "Parameter".toList
  | .database_name => "Database_name".toList
  | .extension_name => "Extension_name".toList
  | .ext_config_name => "Ext_config_name".toList
  | .table_name => "Table_name".toList
  | .action_name => "Action_name".toList
  | .column_name => "Column_name".toList
  | .column_name_list => "Column_name_list".toList
  | .index_name => "Index_name".toList
  | .annotation_target_name => "Annotation_target_name".toList
  | .annotation_attr_name => "Annotation_attr_name".toList
  | .annotation_attr_value => "Annotation_attr_value".toList
  | .ext_config_value => "Ext_config_value".toList
  | .init_decl => "Init_decl".toList
  | .action_stmt_list => "Action_stmt_list".toList
  | .action_stmt => "Action_stmt".toList
  | .sql_stmt => "Sql_stmt".toList
  | .call_stmt => "Call_stmt".toList
  | .call_receivers => "Call_receivers".toList
  | .call_body => "Call_body".toList
  | .variable => "Variable".toList
  | .block_var => "Block_var".toList
  | .extension_call_name => "Extension_call_name".toList
  | .fn_name => "Fn_name".toList
  | .sfn_name => "Sfn_name".toList
  | .fn_arg_list => "Fn_arg_list".toList
  | .fn_arg_expr => "Fn_arg_expr".toList

/-- kuneiform_parser.go:46-61 `staticData.SymbolicNames`. -/
def TT.goName : TT → Str
  | .EOF => "EOF".toList
  | .COL => "COL".toList
  | .SCOL => "SCOL".toList
  | .L_PAREN => "L_PAREN".toList
  | .L_BRACE => "L_BRACE".toList
  | .R_PAREN => "R_PAREN".toList
  | .R_BRACE => "R_BRACE".toList
  | .COMMA => "COMMA".toList
  | .DOLLAR => "DOLLAR".toList
  | .HASH => "HASH".toList
  | .AT => "AT".toList
  | .PERIOD => "PERIOD".toList
  | .ASSIGN => "ASSIGN".toList
  | .PLUS => "PLUS".toList
  | .MINUS => "MINUS".toList
  | .STAR => "STAR".toList
  | .DIV => "DIV".toList
  | .MOD => "MOD".toList
  | .TILDE => "TILDE".toList
  | .PIPE2 => "PIPE2".toList
  | .LT2 => "LT2".toList
  | .GT2 => "GT2".toList
  | .AMP => "AMP".toList
  | .PIPE => "PIPE".toList
  | .EQ => "EQ".toList
  | .LT => "LT".toList
  | .LT_EQ => "LT_EQ".toList
  | .GT => "GT".toList
  | .GT_EQ => "GT_EQ".toList
  | .SQL_NOT_EQ1 => "SQL_NOT_EQ1".toList
  | .SQL_NOT_EQ2 => "SQL_NOT_EQ2".toList
  | .DATABASE_ => "DATABASE_".toList
  | .USE_ => "USE_".toList
  | .AS_ => "AS_".toList
  | .TABLE_ => "TABLE_".toList
  | .ACTION_ => "ACTION_".toList
  | .INIT_ => "INIT_".toList
  | .PUBLIC_ => "PUBLIC_".toList
  | .PRIVATE_ => "PRIVATE_".toList
  | .VIEW_ => "VIEW_".toList
  | .OWNER_ => "OWNER_".toList
  | .INT_ => "INT_".toList
  | .TEXT_ => "TEXT_".toList
  | .BLOB_ => "BLOB_".toList
  | .MIN_ => "MIN_".toList
  | .MAX_ => "MAX_".toList
  | .MIN_LEN_ => "MIN_LEN_".toList
  | .MAX_LEN_ => "MAX_LEN_".toList
  | .NOT_NULL_ => "NOT_NULL_".toList
  | .PRIMARY_ => "PRIMARY_".toList
  | .DEFAULT_ => "DEFAULT_".toList
  | .UNIQUE_ => "UNIQUE_".toList
  | .INDEX_ => "INDEX_".toList
  | .FOREIGN_KEY_ => "FOREIGN_KEY_".toList
  | .FOREIGN_KEY_ABBR_ => "FOREIGN_KEY_ABBR_".toList
  | .REFERENCES_ => "REFERENCES_".toList
  | .REFERENCES_ABBR_ => "REFERENCES_ABBR_".toList
  | .ACTION_ON_UPDATE_ => "ACTION_ON_UPDATE_".toList
  | .ACTION_ON_DELETE_ => "ACTION_ON_DELETE_".toList
  | .ACTION_DO_ => "ACTION_DO_".toList
  | .ACTION_DO_NO_ACTION_ => "ACTION_DO_NO_ACTION_".toList
  | .ACTION_DO_CASCADE_ => "ACTION_DO_CASCADE_".toList
  | .ACTION_DO_SET_NULL_ => "ACTION_DO_SET_NULL_".toList
  | .ACTION_DO_SET_DEFAULT_ => "ACTION_DO_SET_DEFAULT_".toList
  | .ACTION_DO_RESTRICT_ => "ACTION_DO_RESTRICT_".toList
  | .SELECT_ => "SELECT_".toList
  | .INSERT_ => "INSERT_".toList
  | .UPDATE_ => "UPDATE_".toList
  | .DELETE_ => "DELETE_".toList
  | .WITH_ => "WITH_".toList
  | .NOT_ => "NOT_".toList
  | .AND_ => "AND_".toList
  | .OR_ => "OR_".toList
  | .IDENTIFIER => "IDENTIFIER".toList
  | .INDEX_NAME => "INDEX_NAME".toList
  | .PARAM_OR_VAR => "PARAM_OR_VAR".toList
  | .BLOCK_VAR_OR_ANNOTATION => "BLOCK_VAR_OR_ANNOTATION".toList
  | .UNSIGNED_NUMBER_LITERAL => "UNSIGNED_NUMBER_LITERAL".toList
  | .STRING_LITERAL => "STRING_LITERAL".toList
  | .SQL_KEYWORDS => "SQL_KEYWORDS".toList
  | .SQL_STMT => "SQL_STMT".toList
  | .WS => "WS".toList
  | .TERMINATOR => "TERMINATOR".toList
  | .BLOCK_COMMENT => "BLOCK_COMMENT".toList
  | .LINE_COMMENT => "LINE_COMMENT".toList

end Verif
