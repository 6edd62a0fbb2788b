import Verif.Props.Conformance
/-!
# The project's own test cases, part 3 of 3
-/

set_option maxRecDepth 100000

namespace Verif.Conformance

/-- parser_test.go: table with int column -/
example : Gives "database td1; table tt1 { tc1 int, }"
    ⟨"".toList, "td1".toList, some [⟨"tt1".toList, some [⟨"tc1".toList, "int".toList, none⟩], none, none⟩], none, none⟩ := gives_of _ rfl (by decide +kernel)

/-- parser_test.go: table with text column with all attrs -/
example : Gives "database td1; table tt1 { tc1 text minlen(3) maxlen(30) default('3') notnull primary unique }"
    ⟨"".toList, "td1".toList, some [⟨"tt1".toList, some [⟨"tc1".toList, "text".toList, some [⟨"min_length".toList, some "3".toList⟩, ⟨"max_length".toList, some "30".toList⟩, ⟨"default".toList, some "'3'".toList⟩, ⟨"not_null".toList, none⟩, ⟨"primary_key".toList, none⟩, ⟨"unique".toList, none⟩]⟩], none, none⟩], none, none⟩ := gives_of _ rfl (by decide +kernel)

/-- parser_test.go: table with primary index -/
example : Gives "database td1; table tt1 { tc1 int, tc2 text, #idx1 primary (tc1,tc2) }"
    ⟨"".toList, "td1".toList, some [⟨"tt1".toList, some [⟨"tc1".toList, "int".toList, none⟩, ⟨"tc2".toList, "text".toList, none⟩], some [⟨"idx1".toList, some ["tc1".toList, "tc2".toList], "primary".toList⟩], none⟩], none, none⟩ := gives_of _ rfl (by decide +kernel)

/-- parser_test.go: table with foreign key update no_action using abbr without do -/
example : Gives "database td1; \n\t\t\ttable tt1 { tc1 int, tc2 text }\n            table tt2 { tc1 int, tc2 text, fk (tc1) ref tt1 (tc1) on_update no_action,}"
    ⟨"".toList, "td1".toList, some [⟨"tt1".toList, some [⟨"tc1".toList, "int".toList, none⟩, ⟨"tc2".toList, "text".toList, none⟩], none, none⟩, ⟨"tt2".toList, some [⟨"tc1".toList, "int".toList, none⟩, ⟨"tc2".toList, "text".toList, none⟩], none, some [⟨some ["tc1".toList], some ["tc1".toList], "tt1".toList, some [⟨"UPDATE".toList, "NO ACTION".toList⟩]⟩]⟩], none, none⟩ := gives_of _ rfl (by decide +kernel)

/-- parser_test.go: table with foreign key update set_null -/
example : Gives "database td1; \n\t\t\ttable tt1 { tc1 int, tc2 text }\n            table tt2 { tc1 int, tc2 text, foreign_key (tc1) references tt1 (tc1) on_update do set_null}"
    ⟨"".toList, "td1".toList, some [⟨"tt1".toList, some [⟨"tc1".toList, "int".toList, none⟩, ⟨"tc2".toList, "text".toList, none⟩], none, none⟩, ⟨"tt2".toList, some [⟨"tc1".toList, "int".toList, none⟩, ⟨"tc2".toList, "text".toList, none⟩], none, some [⟨some ["tc1".toList], some ["tc1".toList], "tt1".toList, some [⟨"UPDATE".toList, "SET NULL".toList⟩]⟩]⟩], none, none⟩ := gives_of _ rfl (by decide +kernel)

/-- parser_test.go: table with foreign key delete no_action -/
example : Gives "database td1; \n\t\t\ttable tt1 { tc1 int, tc2 text }\n            table tt2 { tc1 int, tc2 text, foreign_key (tc1) references tt1 (tc1) on_delete no_action,}"
    ⟨"".toList, "td1".toList, some [⟨"tt1".toList, some [⟨"tc1".toList, "int".toList, none⟩, ⟨"tc2".toList, "text".toList, none⟩], none, none⟩, ⟨"tt2".toList, some [⟨"tc1".toList, "int".toList, none⟩, ⟨"tc2".toList, "text".toList, none⟩], none, some [⟨some ["tc1".toList], some ["tc1".toList], "tt1".toList, some [⟨"DELETE".toList, "NO ACTION".toList⟩]⟩]⟩], none, none⟩ := gives_of _ rfl (by decide +kernel)

/-- parser_test.go: table with foreign key delete set_default -/
example : Gives "database td1; \n\t\t\ttable tt1 { tc1 int, tc2 text }\n            table tt2 { tc1 int, tc2 text, foreign_key (tc1) references tt1 (tc1) on_delete set_default}"
    ⟨"".toList, "td1".toList, some [⟨"tt1".toList, some [⟨"tc1".toList, "int".toList, none⟩, ⟨"tc2".toList, "text".toList, none⟩], none, none⟩, ⟨"tt2".toList, some [⟨"tc1".toList, "int".toList, none⟩, ⟨"tc2".toList, "text".toList, none⟩], none, some [⟨some ["tc1".toList], some ["tc1".toList], "tt1".toList, some [⟨"DELETE".toList, "SET DEFAULT".toList⟩]⟩]⟩], none, none⟩ := gives_of _ rfl (by decide +kernel)

/-- parser_test.go: table with mixed foreign key and index -/
example : Gives "database td1;\n\t\t\ttable tt1 {\n\t\t\t\ttc1 int, tc2 text,\n\t\t\t\t#idx1 primary (tc1,tc2),\n\t\t\t\tforeign_key (tc1) references tt1 (tc1) on_delete cascade on_update restrict,\n\t\t\t\t#idx2 primary (tc1,tc2),\n\t\t}"
    ⟨"".toList, "td1".toList, some [⟨"tt1".toList, some [⟨"tc1".toList, "int".toList, none⟩, ⟨"tc2".toList, "text".toList, none⟩], some [⟨"idx1".toList, some ["tc1".toList, "tc2".toList], "primary".toList⟩, ⟨"idx2".toList, some ["tc1".toList, "tc2".toList], "primary".toList⟩], some [⟨some ["tc1".toList], some ["tc1".toList], "tt1".toList, some [⟨"DELETE".toList, "CASCADE".toList⟩, ⟨"UPDATE".toList, "RESTRICT".toList⟩]⟩]⟩], none, none⟩ := gives_of _ rfl (by decide +kernel)

/-- parser_test.go: action with all auxiliaries -/
example : Gives "database td1; table tt1 { tc1 int, tc2 text }\n\t\t\taction act1() public owner { insert into tt1 (tc1, tc2) values (1, \"2\"); }"
    ⟨"".toList, "td1".toList, some [⟨"tt1".toList, some [⟨"tc1".toList, "int".toList, none⟩, ⟨"tc2".toList, "text".toList, none⟩], none, none⟩], some [⟨"act1".toList, none, none, true, "update".toList, some ["owner".toList], some ["insert into tt1 (tc1, tc2) values (1, \"2\");".toList]⟩], none⟩ := gives_of _ rfl (by decide +kernel)

/-- parser_test.go: action with sql delete -/
example : Gives "database td1; table tt1 { tc1 int, tc2 text }\n\t\t\taction act1() public { delete from tt1 where tc1 = 1; }"
    ⟨"".toList, "td1".toList, some [⟨"tt1".toList, some [⟨"tc1".toList, "int".toList, none⟩, ⟨"tc2".toList, "text".toList, none⟩], none, none⟩], some [⟨"act1".toList, none, none, true, "update".toList, none, some ["delete from tt1 where tc1 = 1;".toList]⟩], none⟩ := gives_of _ rfl (by decide +kernel)

/-- parser_test.go: action with multi sql statements -/
example : Gives "database td1; table tt1 { tc1 int, tc2 text }\n\t\t\taction act1($var1) private { select * from tt1 where tc1 = 2;\n\t\t\t\t\t\t\t\t\t\t select * from tt1 where tc1 = $var1; }"
    ⟨"".toList, "td1".toList, some [⟨"tt1".toList, some [⟨"tc1".toList, "int".toList, none⟩, ⟨"tc2".toList, "text".toList, none⟩], none, none⟩], some [⟨"act1".toList, none, some ["$var1".toList], false, "update".toList, none, some ["select * from tt1 where tc1 = 2;".toList, "select * from tt1 where tc1 = $var1;".toList]⟩], none⟩ := gives_of _ rfl (by decide +kernel)

/-- parser_test.go: action with extension call using scalar function -/
example : Gives "database td1;\n\t\t\tuse a_ext{addr: '0x0000', seed: 3} as ext1;\n\t\t\ttable tt1 { tc1 int, tc2 text }\n\t\t\taction act2($a) private\n\t\t\t{ $v = ext1.call(2, '3', $a, @caller, -2, 1 + - 2, (1 * 2) + 3, 1 <= 2, 1 and $a, lower(@caller), upper(@caller)); }"
    ⟨"".toList, "td1".toList, some [⟨"tt1".toList, some [⟨"tc1".toList, "int".toList, none⟩, ⟨"tc2".toList, "text".toList, none⟩], none, none⟩], some [⟨"act2".toList, none, some ["$a".toList], false, "update".toList, none, some ["$v=ext1.call(2,'3',$a,@caller,-2,1+-2,(1*2)+3,1<=2,1and$a,lower(@caller),upper(@caller));".toList]⟩], some [⟨"a_ext".toList, some [⟨"addr".toList, "'0x0000'".toList⟩, ⟨"seed".toList, "3".toList⟩], "ext1".toList⟩]⟩ := gives_of _ rfl (by decide +kernel)

/-- parser_test.go: with init and actions -/
example : Gives "database td1;\n\t\t\t\tuse a_ext{addr: '0x0000', seed: 3} as ext1;\n \t\t\t\ttable tt1 { tc1 int }\n\t\t\t\taction act1($var1) private { select * from tt1 where tc1 = $var1; }\n\t\t\t\tinit() {\n\t\t\t\t\tact1(1);\n\t\t\t\t\t$v = ext1.call(@caller);\n\t\t\t\t\tinsert into tt1 values ($v);\n\t\t\t\t}"
    ⟨"".toList, "td1".toList, some [⟨"tt1".toList, some [⟨"tc1".toList, "int".toList, none⟩], none, none⟩], some [⟨"act1".toList, none, some ["$var1".toList], false, "update".toList, none, some ["select * from tt1 where tc1 = $var1;".toList]⟩, ⟨"init".toList, none, none, false, "update".toList, none, some ["act1(1);".toList, "$v=ext1.call(@caller);".toList, "insert into tt1 values ($v);".toList]⟩], some [⟨"a_ext".toList, some [⟨"addr".toList, "'0x0000'".toList⟩, ⟨"seed".toList, "3".toList⟩], "ext1".toList⟩]⟩ := gives_of _ rfl (by decide +kernel)

/-- parser_test.go: use keyword as table name -/
example : Fails "database td1; table table { tc1 int, tc2 text }" .invalidSyntax := fails_of _ rfl (by decide +kernel)

/-- parser_test.go: action sql without semicolon -/
example : Fails "database td1; table tt1 { tc1 int, tc2 text }\n                   action act1() public { select * from tt1 }" .invalidSyntax := fails_of _ rfl (by decide +kernel)

/-- parser_test.go: attr min for text column -/
example : Fails "database td1; table tt1 { tc1 text min(10)}" .attributeNotAllow := fails_of _ rfl (by decide +kernel)

/-- parser_test.go: attr maxlen for int column -/
example : Fails "database td1; table tt1 { tc1 int maxlen(10)}" .attributeNotAllow := fails_of _ rfl (by decide +kernel)

/-- parser_test.go: dup column -/
example : Fails "database td1; table tt1 { tc1 int, tc2 text, tc1 int }" .duplicateColumn := fails_of _ rfl (by decide +kernel)

/-- parser_test.go: dup action -/
example : Fails "database td1; action act1() public {select * from tt1;} action act1() public {select * from tt1;}" .duplicateAction := fails_of _ rfl (by decide +kernel)

/-- parser_test.go: dup variable -/
example : Fails "database td1; use erc20 as token; action act2($param) public { $var1, $var1 = token.balanceOf($param); }" .duplicateVariable := fails_of _ rfl (by decide +kernel)

/-- parser_test.go: column not found in fk child keys -/
example : Fails "database td1; table tt1 { tc1 int, tc2 text } table tt2 { tc1 int, tc2 text, fk (tc3) ref tt1 (tc1) on_delete cascade }" .columnNotFound := fails_of _ rfl (by decide +kernel)

/-- parser_test.go: variable not found in action call -/
example : Fails "database td1; action act1($name) public {select *;}  action act2() public { act1($nondefined); }" .variableNotFound := fails_of _ rfl (by decide +kernel)

/-- parser_test.go: block variable not found in extension call -/
example : Fails "database td1; use erc20 as token; action act2() public { $var1 = token.balanceOf(@nondefined); }" .variableNotFound := fails_of _ rfl (by decide +kernel)

/-- parser_test.go: action visibility already set 2 -/
example : Fails "database td1; action act1() public public { select *; }" .actionVisibilityAlreadySet := fails_of _ rfl (by decide +kernel)

/-- annotation_test.go: empty -/
example : parseAnnotation "".toList = .error "invalid annotation: ".toList := by decide +kernel

/-- annotation_test.go: single int -/
example : parseAnnotation "t(a=1)".toList =
    .ok ⟨"t".toList, [⟨"a".toList, "1".toList⟩]⟩ := by decide +kernel

/-- annotation_test.go: multiple int and string with random space -/
example : parseAnnotation "t(a= 1, b='1',c =323,d = 'whatever' )".toList =
    .ok ⟨"t".toList, [⟨"a".toList, "1".toList⟩, ⟨"b".toList, "'1'".toList⟩, ⟨"c".toList, "323".toList⟩, ⟨"d".toList, "'whatever'".toList⟩]⟩ := by decide +kernel

end Verif.Conformance
