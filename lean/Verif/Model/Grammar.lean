import Verif.Model.Token
/-!
# The grammar, with the lookahead decisions of the generated parser

kfgrammar/kuneiform_parser.go has one Go function per grammar rule.  A rule is
modelled by an expression `G` over tokens and rule calls; every choice and
every loop carries the lookahead test that the Go code makes there.
`Verif/Proof/AtnParser.lean` proves that the expressions, without the tests,
are the decompiled `serializedATN` of the parser.
-/

namespace Verif

/-- Rule names, kfgrammar/kuneiform_parser.go:62-76, in the order of their
numbers. -/
inductive Rule where
  | source_unit
  | database_directive
  | extension_directive
  | ext_config_list
  | ext_config
  | annotation_decl
  | annotation_attr_list
  | annotation_attr
  | table_decl
  | column_def
  | column_def_list
  | column_type
  | column_constraint
  | literal_value
  | number_value
  | index_def
  | foreign_key_action
  | foreign_key_def
  | action_visibility
  | action_mutability
  | action_auxiliary
  | action_attr_list
  | action_decl
  | param_list
  | parameter
  | database_name
  | extension_name
  | ext_config_name
  | table_name
  | action_name
  | column_name
  | column_name_list
  | index_name
  | annotation_target_name
  | annotation_attr_name
  | annotation_attr_value
  | ext_config_value
  | init_decl
  | action_stmt_list
  | action_stmt
  | sql_stmt
  | call_stmt
  | call_receivers
  | call_body
  | variable
  | block_var
  | extension_call_name
  | fn_name
  | sfn_name
  | fn_arg_list
  | fn_arg_expr
  deriving DecidableEq, Repr, Inhabited

/-- Rule number, kfgrammar/kuneiform_parser.go:400-450 (constants
`KuneiformParserRULE_*`). -/
def Rule.code : Rule → Nat
  | .source_unit => 0
  | .database_directive => 1
  | .extension_directive => 2
  | .ext_config_list => 3
  | .ext_config => 4
  | .annotation_decl => 5
  | .annotation_attr_list => 6
  | .annotation_attr => 7
  | .table_decl => 8
  | .column_def => 9
  | .column_def_list => 10
  | .column_type => 11
  | .column_constraint => 12
  | .literal_value => 13
  | .number_value => 14
  | .index_def => 15
  | .foreign_key_action => 16
  | .foreign_key_def => 17
  | .action_visibility => 18
  | .action_mutability => 19
  | .action_auxiliary => 20
  | .action_attr_list => 21
  | .action_decl => 22
  | .param_list => 23
  | .parameter => 24
  | .database_name => 25
  | .extension_name => 26
  | .ext_config_name => 27
  | .table_name => 28
  | .action_name => 29
  | .column_name => 30
  | .column_name_list => 31
  | .index_name => 32
  | .annotation_target_name => 33
  | .annotation_attr_name => 34
  | .annotation_attr_value => 35
  | .ext_config_value => 36
  | .init_decl => 37
  | .action_stmt_list => 38
  | .action_stmt => 39
  | .sql_stmt => 40
  | .call_stmt => 41
  | .call_receivers => 42
  | .call_body => 43
  | .variable => 44
  | .block_var => 45
  | .extension_call_name => 46
  | .fn_name => 47
  | .sfn_name => 48
  | .fn_arg_list => 49
  | .fn_arg_expr => 50

/-- All rules in the order of their numbers. -/
def Rule.all : List Rule :=
  [.source_unit, .database_directive, .extension_directive, .ext_config_list, .ext_config,
   .annotation_decl, .annotation_attr_list, .annotation_attr, .table_decl, .column_def,
   .column_def_list, .column_type, .column_constraint, .literal_value, .number_value, .index_def,
   .foreign_key_action, .foreign_key_def, .action_visibility, .action_mutability,
   .action_auxiliary, .action_attr_list, .action_decl, .param_list, .parameter, .database_name,
   .extension_name, .ext_config_name, .table_name, .action_name, .column_name, .column_name_list,
   .index_name, .annotation_target_name, .annotation_attr_name, .annotation_attr_value,
   .ext_config_value, .init_decl, .action_stmt_list, .action_stmt, .sql_stmt, .call_stmt,
   .call_receivers, .call_body, .variable, .block_var, .extension_call_name, .fn_name, .sfn_name,
   .fn_arg_list, .fn_arg_expr]

/-- One lookahead test: a precedence test (`none`: no such test) and the
token types allowed for the next tokens (one or two of them). -/
structure Look where
  prec : Option Nat := none
  la : List (List TT)
  deriving DecidableEq, Repr, Inhabited

/-- A decision: take the first branch if one of the tests succeeds. -/
abbrev Guard := List Look

/-- Right-hand sides of grammar rules.  `alt` and `star` carry the decision of
the generated code; `pred k` is the predicate `p.Precpred(ctx, k)`. -/
inductive G where
  | eps
  | tok (s : List TT)
  | call (r : Rule) (prec : Nat)
  | pred (k : Nat)
  | seq (a b : G)
  | alt (g : Guard) (a b : G)
  | star (g : Guard) (a : G)
  deriving DecidableEq, Repr, Inhabited

namespace G
/-- One token of the given type. -/
def t (x : TT) : G := .tok [x]
/-- A call of another rule. -/
def c (r : Rule) : G := .call r 0
/-- `switch LA(1)` or `if _la == ...`. -/
def la1 (s : List TT) : Guard := [{ la := [s] }]
/-- `AdaptivePredict` on two tokens. -/
def la2 (s₁ s₂ : List TT) : Guard := [{ la := [s₁, s₂] }]
/-- Optional part. -/
def opt (s : List TT) (a : G) : G := .alt (la1 s) a .eps
/-- A comma-separated list, `x (COMMA x)*` with a one-token decision. -/
def sep (x : G) : G := .seq x (.star (la1 [.COMMA]) (.seq (t .COMMA) x))
scoped infixr:60 " ⬝ " => G.seq
end G

/-- Tokens that can start `fn_arg_expr`, kuneiform_parser.go:7981 and 8480. -/
def exprFirst : List TT :=
  [.L_PAREN, .PLUS, .MINUS, .TILDE, .NOT_, .IDENTIFIER, .PARAM_OR_VAR,
   .BLOCK_VAR_OR_ANNOTATION, .UNSIGNED_NUMBER_LITERAL, .STRING_LITERAL]

/-- Tokens that can start a `column_constraint`, kuneiform_parser.go:2417. -/
def constraintFirst : List TT :=
  [.MIN_, .MAX_, .MIN_LEN_, .MAX_LEN_, .NOT_NULL_, .PRIMARY_, .DEFAULT_, .UNIQUE_]

/-- The binary operators of `fn_arg_expr`, with the precedence of their
predicate and of their right operand, kuneiform_parser.go:8566-8758. -/
def opTable : List (Nat × List TT × Nat) :=
  [(10, [.PIPE2], 11), (9, [.STAR, .DIV, .MOD], 10), (8, [.PLUS, .MINUS], 9),
   (7, [.LT2, .GT2, .AMP, .PIPE], 8), (6, [.LT, .LT_EQ, .GT, .GT_EQ], 7),
   (5, [.ASSIGN, .EQ, .SQL_NOT_EQ1, .SQL_NOT_EQ2], 6), (3, [.AND_], 4), (2, [.OR_], 3)]

/-- One operator level of the loop in `fn_arg_expr`. -/
def opAlt (e : Nat × List TT × Nat) : G :=
  .seq (.pred e.1) (.seq (.tok e.2.1) (.call .fn_arg_expr e.2.2))

/-- The decision for one operator level: the operator is next and its
precedence is high enough (`AdaptivePredict`, decisions 30 and 31, which
evaluate the precedence predicates). -/
def opLook (e : Nat × List TT × Nat) : Look := { prec := some e.1, la := [e.2.1] }

/-- Right-nested alternatives over the operator levels. -/
def opAlts : List (Nat × List TT × Nat) → G
  | [] => .eps
  | [e] => opAlt e
  | e :: es => .alt [opLook e] (opAlt e) (opAlts es)

open G in
/-- The grammar.  Numbers are lines of kfgrammar/kuneiform_parser.go.  The
`default:` branch of a Go `switch` (error "no viable alternative") is not a
separate case: the model takes the last alternative, which fails at its first
token. -/
def grammar : Rule → G
  | .source_unit =>                       -- 715-812
      c .database_directive ⬝ t .SCOL ⬝ .star (la1 [.USE_]) (c .extension_directive) ⬝
      .star (la1 [.TABLE_, .ACTION_, .INIT_, .BLOCK_VAR_OR_ANNOTATION])
        (.alt (la1 [.TABLE_]) (c .table_decl)
          (.alt (la1 [.ACTION_, .BLOCK_VAR_OR_ANNOTATION]) (c .action_decl) (c .init_decl))) ⬝
      t .EOF
  | .database_directive => t .DATABASE_ ⬝ c .database_name    -- 905-
  | .extension_directive =>               -- 1083-
      t .USE_ ⬝ c .extension_name ⬝
      opt [.L_BRACE] (t .L_BRACE ⬝ c .ext_config_list ⬝ t .R_BRACE) ⬝
      t .AS_ ⬝ c .extension_name ⬝ t .SCOL
  | .ext_config_list => sep (c .ext_config)                   -- 1281-
  | .ext_config => c .ext_config_name ⬝ t .COL ⬝ c .ext_config_value   -- 1435-
  | .annotation_decl =>                   -- 1576-
      c .annotation_target_name ⬝ t .L_PAREN ⬝ c .annotation_attr_list ⬝ t .R_PAREN
  | .annotation_attr_list => sep (c .annotation_attr)         -- 1734-
  | .annotation_attr =>                   -- 1888-
      c .annotation_attr_name ⬝ t .ASSIGN ⬝ c .annotation_attr_value
  | .table_decl =>                        -- 2130-2250, decision 7
      t .TABLE_ ⬝ c .table_name ⬝ t .L_BRACE ⬝ c .column_def_list ⬝
      .star (la2 [.COMMA] [.INDEX_NAME, .FOREIGN_KEY_, .FOREIGN_KEY_ABBR_])
        (t .COMMA ⬝ .alt (la1 [.INDEX_NAME]) (c .index_def) (c .foreign_key_def)) ⬝
      opt [.COMMA] (t .COMMA) ⬝ t .R_BRACE
  | .column_def =>                        -- 2396-
      c .column_name ⬝ c .column_type ⬝ .star (la1 constraintFirst) (c .column_constraint)
  | .column_def_list =>                   -- 2560-2615, decision 10
      .seq (c .column_def)
        (.star (la2 [.COMMA] [.IDENTIFIER]) (t .COMMA ⬝ c .column_def))
  | .column_type => .tok [.INT_, .TEXT_, .BLOB_]              -- 2697-
  | .column_constraint =>                 -- 2875-3080
      .alt (la1 [.PRIMARY_]) (t .PRIMARY_) <|
      .alt (la1 [.NOT_NULL_]) (t .NOT_NULL_) <|
      .alt (la1 [.UNIQUE_]) (t .UNIQUE_) <|
      .alt (la1 [.DEFAULT_]) (t .DEFAULT_ ⬝ t .L_PAREN ⬝ c .literal_value ⬝ t .R_PAREN) <|
      .alt (la1 [.MIN_]) (t .MIN_ ⬝ t .L_PAREN ⬝ c .number_value ⬝ t .R_PAREN) <|
      .alt (la1 [.MAX_]) (t .MAX_ ⬝ t .L_PAREN ⬝ c .number_value ⬝ t .R_PAREN) <|
      .alt (la1 [.MIN_LEN_]) (t .MIN_LEN_ ⬝ t .L_PAREN ⬝ c .number_value ⬝ t .R_PAREN)
        (t .MAX_LEN_ ⬝ t .L_PAREN ⬝ c .number_value ⬝ t .R_PAREN)
  | .literal_value => .tok [.UNSIGNED_NUMBER_LITERAL, .STRING_LITERAL]   -- 3164-
  | .number_value => t .UNSIGNED_NUMBER_LITERAL               -- 3263-
  | .index_def =>                         -- 3411-
      c .index_name ⬝ .tok [.PRIMARY_, .UNIQUE_, .INDEX_] ⬝ t .L_PAREN ⬝
      c .column_name_list ⬝ t .R_PAREN
  | .foreign_key_action =>                -- 3569-
      .tok [.ACTION_ON_UPDATE_, .ACTION_ON_DELETE_] ⬝ opt [.ACTION_DO_] (t .ACTION_DO_) ⬝
      .tok [.ACTION_DO_NO_ACTION_, .ACTION_DO_CASCADE_, .ACTION_DO_SET_NULL_,
        .ACTION_DO_SET_DEFAULT_, .ACTION_DO_RESTRICT_]
  | .foreign_key_def =>                   -- 3835-
      .tok [.FOREIGN_KEY_, .FOREIGN_KEY_ABBR_] ⬝ t .L_PAREN ⬝ c .column_name_list ⬝
      t .R_PAREN ⬝ .tok [.REFERENCES_, .REFERENCES_ABBR_] ⬝ c .table_name ⬝ t .L_PAREN ⬝
      c .column_name_list ⬝ t .R_PAREN ⬝
      .star (la1 [.ACTION_ON_UPDATE_, .ACTION_ON_DELETE_]) (c .foreign_key_action)
  | .action_visibility => .tok [.PUBLIC_, .PRIVATE_]          -- 4014-
  | .action_mutability => t .VIEW_                            -- 4113-
  | .action_auxiliary => t .OWNER_                            -- 4207-
  | .action_attr_list =>                  -- 4425-
      .star (la1 [.PUBLIC_, .PRIVATE_, .VIEW_, .OWNER_])
        (.alt (la1 [.PUBLIC_, .PRIVATE_]) (c .action_visibility)
          (.alt (la1 [.VIEW_]) (c .action_mutability) (c .action_auxiliary)))
  | .action_decl =>                       -- 4689-
      .star (la1 [.BLOCK_VAR_OR_ANNOTATION]) (c .annotation_decl) ⬝
      t .ACTION_ ⬝ c .action_name ⬝ t .L_PAREN ⬝ c .param_list ⬝ t .R_PAREN ⬝
      c .action_attr_list ⬝ t .L_BRACE ⬝ c .action_stmt_list ⬝ t .R_BRACE
  | .param_list =>                        -- 4901-
      .seq (opt [.PARAM_OR_VAR] (c .parameter))
        (.star (la1 [.COMMA]) (t .COMMA ⬝ c .parameter))
  | .parameter => t .PARAM_OR_VAR                             -- 5031-
  | .database_name => t .IDENTIFIER                           -- 5125-
  | .extension_name => t .IDENTIFIER                          -- 5219-
  | .ext_config_name => t .IDENTIFIER                         -- 5313-
  | .table_name => t .IDENTIFIER                              -- 5407-
  | .action_name => t .IDENTIFIER                             -- 5501-
  | .column_name => t .IDENTIFIER                             -- 5595-
  | .column_name_list => sep (c .column_name)                 -- 5737-
  | .index_name => t .INDEX_NAME                              -- 5857-
  | .annotation_target_name => t .BLOCK_VAR_OR_ANNOTATION     -- 5951-
  | .annotation_attr_name => t .IDENTIFIER                    -- 6045-
  | .annotation_attr_value => c .literal_value                -- 6151-
  | .ext_config_value => c .literal_value                     -- 6253-
  | .init_decl =>                         -- 6380-
      t .INIT_ ⬝ t .L_PAREN ⬝ t .R_PAREN ⬝ t .L_BRACE ⬝ c .action_stmt_list ⬝ t .R_BRACE
  | .action_stmt_list =>                  -- 6548-
      .seq (c .action_stmt)
        (.star (la1 [.IDENTIFIER, .PARAM_OR_VAR, .SQL_STMT]) (c .action_stmt))
  | .action_stmt => .alt (la1 [.SQL_STMT]) (c .sql_stmt) (c .call_stmt)   -- 6685-
  | .sql_stmt => t .SQL_STMT ⬝ t .SCOL                        -- 6800-
  | .call_stmt =>                         -- 6941-
      opt [.PARAM_OR_VAR] (c .call_receivers ⬝ t .ASSIGN) ⬝ c .call_body ⬝ t .SCOL
  | .call_receivers => sep (c .variable)                      -- 7111-
  | .call_body => c .fn_name ⬝ t .L_PAREN ⬝ c .fn_arg_list ⬝ t .R_PAREN   -- 7270-
  | .variable => t .PARAM_OR_VAR                              -- 7380-
  | .block_var => t .BLOCK_VAR_OR_ANNOTATION                  -- 7474-
  | .extension_call_name => t .IDENTIFIER ⬝ t .PERIOD ⬝ t .IDENTIFIER     -- 7578-
  | .fn_name =>                           -- 7717-7755, decision 24
      .alt (la2 [.IDENTIFIER] [.PERIOD]) (c .extension_call_name) (c .action_name)
  | .sfn_name => t .IDENTIFIER                                -- 7826-
  | .fn_arg_list =>                       -- 7968-
      .seq (opt exprFirst (c .fn_arg_expr))
        (.star (la1 [.COMMA]) (t .COMMA ⬝ c .fn_arg_expr))
  | .fn_arg_expr =>                       -- 8360-8782, decisions 30 and 31
      .seq
        (.alt (la1 [.UNSIGNED_NUMBER_LITERAL, .STRING_LITERAL]) (c .literal_value) <|
         .alt (la1 [.PARAM_OR_VAR]) (c .variable) <|
         .alt (la1 [.BLOCK_VAR_OR_ANNOTATION]) (c .block_var) <|
         .alt (la1 [.L_PAREN]) (t .L_PAREN ⬝ c .fn_arg_expr ⬝ t .R_PAREN) <|
         .alt (la1 [.PLUS, .MINUS, .TILDE])
           (.seq (.tok [.PLUS, .MINUS, .TILDE]) (.call .fn_arg_expr 11)) <|
         .alt (la1 [.NOT_]) (.seq (t .NOT_) (.call .fn_arg_expr 4))
           (c .sfn_name ⬝ t .L_PAREN ⬝
             .alt (la1 exprFirst) (sep (c .fn_arg_expr))
               (.alt (la1 [.STAR]) (t .STAR) .eps) ⬝
             t .R_PAREN))
        (.star (opTable.map opLook) (opAlts opTable))

end Verif
