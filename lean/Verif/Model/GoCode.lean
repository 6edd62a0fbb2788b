import Verif.Model.Grammar
/-!
# The generated parser, statement by statement

The 51 rule functions of kfgrammar/kuneiform_parser.go (lines 715-8782),
translated by a script that walks through the Go text line by line and stops
at any line it does not know.  Dropped by the script: bookkeeping without
effect on the run (`EnterOuterAlt`, `SetState` before `Match`, labels, the
listener events), and the block after `errorExit:`, which only runs after an
error.
-/

namespace Verif

/-- Tests on the next token as the Go code writes them. -/
inductive LaTest where
  /-- `_la == A || _la == B || ...`, or `case A, B, ...:`. -/
  | eqs (l : List TT)
  /-- `(int64(_la - base) & ^0x3f) == 0 && ((int64(1) << (_la - base)) & mask) != 0`. -/
  | bits (base mask : Nat)
  | or (a b : LaTest)
  deriving Repr, Inhabited

/-- The value of a test (`EOF` is -1 in Go, so no mask contains it). -/
def LaTest.ok (t : TT) : LaTest → Bool
  | .eqs l => l.contains t
  | .bits base mask =>
      t != .EOF && decide (base ≤ t.code) && decide (t.code < base + 64) &&
        mask.testBit (t.code - base)
  | .or a b => a.ok t || b.ok t

/-- Statements of the generated rule functions. -/
inductive Go where
  /-- Nothing. -/
  | skip
  /-- `p.SetError(antlr.NewNoViableAltException(...)); goto errorExit`. -/
  | fail
  | seq (a b : Go)
  /-- `p.Match(T); if p.HasError() { goto errorExit }`. -/
  | tok (t : TT)
  /-- `_la = LA(1); if !(test) { RecoverInline } else { ReportMatch; Consume }`. -/
  | set (c : LaTest)
  /-- `p.SetState(st); p.Rule()`, with the precedence for `fn_arg_expr`. -/
  | call (st : Nat) (r : Rule) (k : Nat)
  /-- `if !p.Precpred(ctx, k) { SetError(FailedPredicate); goto errorExit }`. -/
  | pred (k : Nat)
  /-- `p.SetState(st); p.GetErrorHandler().Sync(p); if p.HasError() { goto errorExit }`. -/
  | sync (st : Nat)
  /-- `if test { a } else { b }`, also for one `case` of `switch LA(1)`. -/
  | ifLA (c : LaTest) (a b : Go)
  /-- `for test { a }`, `_la` being read before the loop and at the end of `a`. -/
  | whileLA (c : LaTest) (a : Go)
  /-- `_alt = AdaptivePredict(d); for _alt != 2 && ... { if _alt == 1 { a }; _alt = AdaptivePredict(d) }`. -/
  | whileAP (d : Nat) (a : Go)
  /-- `switch AdaptivePredict(d) { cases }`. -/
  | switchAP (d : Nat) (cases : Go)
  /-- `case i: a`, followed by the other cases; `skip` ends the list. -/
  | case (d i : Nat) (a rest : Go)
  deriving Repr, Inhabited

namespace Go
scoped infixr:60 " ⬝ " => Go.seq
/-- `for ok := true; ok; ok = test { a }`. -/
def plusLA (c : LaTest) (a : Go) : Go := .seq a (.whileLA c a)
end Go

open Go in
/-- The rule functions.  Numbers after `--` are lines of
kfgrammar/kuneiform_parser.go; numbers in `call` and `sync` are the states set
before. -/
def goCode : Rule → Go
  | .source_unit =>  -- 715-818
      .call 102 .database_directive 0 ⬝
      .tok .SCOL ⬝
      .sync 107 ⬝
      .whileLA (.eqs [.USE_]) (.call 104 .extension_directive 0 ⬝ .sync 109) ⬝
      .sync 115 ⬝
      .whileLA (.bits 34 4398046511111) (.sync 113 ⬝ .ifLA (.eqs [.TABLE_]) (.call 110
        .table_decl 0) (.ifLA (.eqs [.ACTION_, .BLOCK_VAR_OR_ANNOTATION]) (.call 111 .action_decl
        0) (.ifLA (.eqs [.INIT_]) (.call 112 .init_decl 0) .fail)) ⬝ .sync 117) ⬝
      .tok .EOF
  | .database_directive =>  -- 905-933
      .tok .DATABASE_ ⬝
      .call 121 .database_name 0
  | .extension_directive =>  -- 1083-1163
      .tok .USE_ ⬝
      .call 124 .extension_name 0 ⬝
      .sync 129 ⬝
      .ifLA (.eqs [.L_BRACE]) (.tok .L_BRACE ⬝ .call 126 .ext_config_list 0 ⬝ .tok .R_BRACE)
        .skip ⬝
      .tok .AS_ ⬝
      .call 132 .extension_name 0 ⬝
      .tok .SCOL
  | .ext_config_list =>  -- 1281-1331
      .call 135 .ext_config 0 ⬝
      .sync 140 ⬝
      .whileLA (.eqs [.COMMA]) (.tok .COMMA ⬝ .call 137 .ext_config 0 ⬝ .sync 142)
  | .ext_config =>  -- 1435-1467
      .call 143 .ext_config_name 0 ⬝
      .tok .COL ⬝
      .call 145 .ext_config_value 0
  | .annotation_decl =>  -- 1576-1616
      .call 147 .annotation_target_name 0 ⬝
      .tok .L_PAREN ⬝
      .call 149 .annotation_attr_list 0 ⬝
      .tok .R_PAREN
  | .annotation_attr_list =>  -- 1734-1784
      .call 152 .annotation_attr 0 ⬝
      .sync 157 ⬝
      .whileLA (.eqs [.COMMA]) (.tok .COMMA ⬝ .call 154 .annotation_attr 0 ⬝ .sync 159)
  | .annotation_attr =>  -- 1888-1920
      .call 160 .annotation_attr_name 0 ⬝
      .tok .ASSIGN ⬝
      .call 162 .annotation_attr_value 0
  | .table_decl =>  -- 2130-2254
      .tok .TABLE_ ⬝
      .call 165 .table_name 0 ⬝
      .tok .L_BRACE ⬝
      .call 167 .column_def_list 0 ⬝
      .sync 175 ⬝
      .whileAP 7 (.tok .COMMA ⬝ .sync 171 ⬝ .ifLA (.eqs [.INDEX_NAME]) (.call 169 .index_def 0)
        (.ifLA (.eqs [.FOREIGN_KEY_, .FOREIGN_KEY_ABBR_]) (.call 170 .foreign_key_def 0) .fail) ⬝
        .sync 177) ⬝
      .sync 179 ⬝
      .ifLA (.eqs [.COMMA]) (.tok .COMMA) .skip ⬝
      .tok .R_BRACE
  | .column_def =>  -- 2396-2442
      .call 183 .column_name 0 ⬝
      .call 184 .column_type 0 ⬝
      .sync 188 ⬝
      .whileLA (.bits 0 4486007441326080) (.call 185 .column_constraint 0 ⬝ .sync 190)
  | .column_def_list =>  -- 2560-2617
      .call 191 .column_def 0 ⬝
      .sync 196 ⬝
      .whileAP 10 (.tok .COMMA ⬝ .call 193 .column_def 0 ⬝ .sync 198)
  | .column_type =>  -- 2697-2726
      .set (.bits 0 15393162788864)
  | .column_constraint =>  -- 2875-3089
      .sync 229 ⬝
      .ifLA (.eqs [.PRIMARY_]) (.tok .PRIMARY_) (.ifLA (.eqs [.NOT_NULL_]) (.tok .NOT_NULL_)
        (.ifLA (.eqs [.UNIQUE_]) (.tok .UNIQUE_) (.ifLA (.eqs [.DEFAULT_]) (.tok .DEFAULT_ ⬝ .tok
        .L_PAREN ⬝ .call 206 .literal_value 0 ⬝ .tok .R_PAREN) (.ifLA (.eqs [.MIN_]) (.tok .MIN_ ⬝
        .tok .L_PAREN ⬝ .call 211 .number_value 0 ⬝ .tok .R_PAREN) (.ifLA (.eqs [.MAX_]) (.tok
        .MAX_ ⬝ .tok .L_PAREN ⬝ .call 216 .number_value 0 ⬝ .tok .R_PAREN) (.ifLA (.eqs
        [.MIN_LEN_]) (.tok .MIN_LEN_ ⬝ .tok .L_PAREN ⬝ .call 221 .number_value 0 ⬝ .tok .R_PAREN)
        (.ifLA (.eqs [.MAX_LEN_]) (.tok .MAX_LEN_ ⬝ .tok .L_PAREN ⬝ .call 226 .number_value 0 ⬝
        .tok .R_PAREN) .fail)))))))
  | .literal_value =>  -- 3164-3193
      .set (.eqs [.UNSIGNED_NUMBER_LITERAL, .STRING_LITERAL])
  | .number_value =>  -- 3263-3287
      .tok .UNSIGNED_NUMBER_LITERAL
  | .index_def =>  -- 3411-3464
      .call 235 .index_name 0 ⬝
      .set (.bits 0 7318349394477056) ⬝
      .tok .L_PAREN ⬝
      .call 238 .column_name_list 0 ⬝
      .tok .R_PAREN
  | .foreign_key_action =>  -- 3569-3627
      .set (.eqs [.ACTION_ON_UPDATE_, .ACTION_ON_DELETE_]) ⬝
      .sync 243 ⬝
      .ifLA (.eqs [.ACTION_DO_]) (.tok .ACTION_DO_) .skip ⬝
      .set (.bits 60 31)
  | .foreign_key_def =>  -- 3835-3939
      .set (.eqs [.FOREIGN_KEY_, .FOREIGN_KEY_ABBR_]) ⬝
      .tok .L_PAREN ⬝
      .call 249 .column_name_list 0 ⬝
      .tok .R_PAREN ⬝
      .set (.eqs [.REFERENCES_, .REFERENCES_ABBR_]) ⬝
      .call 252 .table_name 0 ⬝
      .tok .L_PAREN ⬝
      .call 254 .column_name_list 0 ⬝
      .tok .R_PAREN ⬝
      .sync 259 ⬝
      .whileLA (.eqs [.ACTION_ON_UPDATE_, .ACTION_ON_DELETE_]) (.call 256 .foreign_key_action 0
        ⬝ .sync 261)
  | .action_visibility =>  -- 4014-4043
      .set (.eqs [.PUBLIC_, .PRIVATE_])
  | .action_mutability =>  -- 4113-4137
      .tok .VIEW_
  | .action_auxiliary =>  -- 4207-4231
      .tok .OWNER_
  | .action_attr_list =>  -- 4425-4488
      .sync 273 ⬝
      .whileLA (.bits 0 2061584302080) (.sync 271 ⬝ .ifLA (.eqs [.PUBLIC_, .PRIVATE_]) (.call
        268 .action_visibility 0) (.ifLA (.eqs [.VIEW_]) (.call 269 .action_mutability 0) (.ifLA
        (.eqs [.OWNER_]) (.call 270 .action_auxiliary 0) .fail)) ⬝ .sync 275)
  | .action_decl =>  -- 4689-4783
      .sync 279 ⬝
      .whileLA (.eqs [.BLOCK_VAR_OR_ANNOTATION]) (.call 276 .annotation_decl 0 ⬝ .sync 281) ⬝
      .tok .ACTION_ ⬝
      .call 283 .action_name 0 ⬝
      .tok .L_PAREN ⬝
      .call 285 .param_list 0 ⬝
      .tok .R_PAREN ⬝
      .call 287 .action_attr_list 0 ⬝
      .tok .L_BRACE ⬝
      .call 289 .action_stmt_list 0 ⬝
      .tok .R_BRACE
  | .param_list =>  -- 4901-4961
      .sync 293 ⬝
      .ifLA (.eqs [.PARAM_OR_VAR]) (.call 292 .parameter 0) .skip ⬝
      .sync 299 ⬝
      .whileLA (.eqs [.COMMA]) (.tok .COMMA ⬝ .call 296 .parameter 0 ⬝ .sync 301)
  | .parameter =>  -- 5031-5055
      .tok .PARAM_OR_VAR
  | .database_name =>  -- 5125-5149
      .tok .IDENTIFIER
  | .extension_name =>  -- 5219-5243
      .tok .IDENTIFIER
  | .ext_config_name =>  -- 5313-5337
      .tok .IDENTIFIER
  | .table_name =>  -- 5407-5431
      .tok .IDENTIFIER
  | .action_name =>  -- 5501-5525
      .tok .IDENTIFIER
  | .column_name =>  -- 5595-5619
      .tok .IDENTIFIER
  | .column_name_list =>  -- 5737-5787
      .call 316 .column_name 0 ⬝
      .sync 321 ⬝
      .whileLA (.eqs [.COMMA]) (.tok .COMMA ⬝ .call 318 .column_name 0 ⬝ .sync 323)
  | .index_name =>  -- 5857-5881
      .tok .INDEX_NAME
  | .annotation_target_name =>  -- 5951-5975
      .tok .BLOCK_VAR_OR_ANNOTATION
  | .annotation_attr_name =>  -- 6045-6069
      .tok .IDENTIFIER
  | .annotation_attr_value =>  -- 6151-6171
      .call 330 .literal_value 0
  | .ext_config_value =>  -- 6253-6273
      .call 332 .literal_value 0
  | .init_decl =>  -- 6380-6440
      .tok .INIT_ ⬝
      .tok .L_PAREN ⬝
      .tok .R_PAREN ⬝
      .tok .L_BRACE ⬝
      .call 338 .action_stmt_list 0 ⬝
      .tok .R_BRACE
  | .action_stmt_list =>  -- 6548-6586
      .sync 342 ⬝
      .plusLA (.bits 73 133) (.call 341 .action_stmt 0 ⬝ .sync 344)
  | .action_stmt =>  -- 6685-6725
      .sync 348 ⬝
      .ifLA (.eqs [.SQL_STMT]) (.call 346 .sql_stmt 0) (.ifLA (.eqs [.IDENTIFIER,
        .PARAM_OR_VAR]) (.call 347 .call_stmt 0) .fail)
  | .sql_stmt =>  -- 6800-6832
      .tok .SQL_STMT ⬝
      .tok .SCOL
  | .call_stmt =>  -- 6941-6993
      .sync 356 ⬝
      .ifLA (.eqs [.PARAM_OR_VAR]) (.call 353 .call_receivers 0 ⬝ .tok .ASSIGN) .skip ⬝
      .call 358 .call_body 0 ⬝
      .tok .SCOL
  | .call_receivers =>  -- 7111-7161
      .call 361 .variable 0 ⬝
      .sync 366 ⬝
      .whileLA (.eqs [.COMMA]) (.tok .COMMA ⬝ .call 363 .variable 0 ⬝ .sync 368)
  | .call_body =>  -- 7270-7310
      .call 369 .fn_name 0 ⬝
      .tok .L_PAREN ⬝
      .call 371 .fn_arg_list 0 ⬝
      .tok .R_PAREN
  | .variable =>  -- 7380-7404
      .tok .PARAM_OR_VAR
  | .block_var =>  -- 7474-7498
      .tok .BLOCK_VAR_OR_ANNOTATION
  | .extension_call_name =>  -- 7578-7618
      .tok .IDENTIFIER ⬝
      .tok .PERIOD ⬝
      .tok .IDENTIFIER
  | .fn_name =>  -- 7717-7756
      .sync 384 ⬝
      .switchAP 24 (.case 24 1 (.call 382 .extension_call_name 0) (.case 24 2 (.call 383
        .action_name 0) .skip))
  | .sfn_name =>  -- 7826-7850
      .tok .IDENTIFIER
  | .fn_arg_list =>  -- 7968-8028
      .sync 389 ⬝
      .ifLA (.or (.bits 0 286728) (.bits 70 489)) (.call 388 .fn_arg_expr 0) .skip ⬝
      .sync 395 ⬝
      .whileLA (.eqs [.COMMA]) (.tok .COMMA ⬝ .call 392 .fn_arg_expr 0 ⬝ .sync 397)
  | .fn_arg_expr =>  -- 8360-8782
      .sync 425 ⬝
      .ifLA (.eqs [.UNSIGNED_NUMBER_LITERAL, .STRING_LITERAL]) (.call 399 .literal_value 0)
        (.ifLA (.eqs [.PARAM_OR_VAR]) (.call 400 .variable 0) (.ifLA (.eqs
        [.BLOCK_VAR_OR_ANNOTATION]) (.call 401 .block_var 0) (.ifLA (.eqs [.L_PAREN]) (.tok
        .L_PAREN ⬝ .call 403 .fn_arg_expr 0 ⬝ .tok .R_PAREN) (.ifLA (.eqs [.PLUS, .MINUS, .TILDE])
        (.set (.bits 0 286720) ⬝ .call 407 .fn_arg_expr 11) (.ifLA (.eqs [.NOT_]) (.tok .NOT_ ⬝
        .call 409 .fn_arg_expr 4) (.ifLA (.eqs [.IDENTIFIER]) (.call 410 .sfn_name 0 ⬝ .tok
        .L_PAREN ⬝ .sync 421 ⬝ .ifLA (.eqs [.L_PAREN, .PLUS, .MINUS, .TILDE, .NOT_, .IDENTIFIER,
        .PARAM_OR_VAR, .BLOCK_VAR_OR_ANNOTATION, .UNSIGNED_NUMBER_LITERAL, .STRING_LITERAL])
        (.call 412 .fn_arg_expr 0 ⬝ .sync 417 ⬝ .whileLA (.eqs [.COMMA]) (.tok .COMMA ⬝ .call 414
        .fn_arg_expr 0 ⬝ .sync 419)) (.ifLA (.eqs [.STAR]) (.tok .STAR) (.ifLA (.eqs [.R_PAREN])
        .skip .skip)) ⬝ .tok .R_PAREN) .fail)))))) ⬝
      .sync 453 ⬝
      .whileAP 31 (.sync 451 ⬝ .switchAP 30 (.case 30 1 (.pred 10 ⬝ .tok .PIPE2 ⬝ .call 429
        .fn_arg_expr 11) (.case 30 2 (.pred 9 ⬝ .set (.bits 0 229376) ⬝ .call 432 .fn_arg_expr 10)
        (.case 30 3 (.pred 8 ⬝ .set (.eqs [.PLUS, .MINUS]) ⬝ .call 435 .fn_arg_expr 9) (.case 30 4
        (.pred 7 ⬝ .set (.bits 0 15728640) ⬝ .call 438 .fn_arg_expr 8) (.case 30 5 (.pred 6 ⬝ .set
        (.bits 0 503316480) ⬝ .call 441 .fn_arg_expr 7) (.case 30 6 (.pred 5 ⬝ .set (.bits 0
        1627394048) ⬝ .call 444 .fn_arg_expr 6) (.case 30 7 (.pred 3 ⬝ .tok .AND_ ⬝ .call 447
        .fn_arg_expr 4) (.case 30 8 (.pred 2 ⬝ .tok .OR_ ⬝ .call 450 .fn_arg_expr 3) .skip))))))))
        ⬝ .sync 455)

end Verif
