import Verif.Props.Conformance
/-!
# The project's own test cases, part 2 of 3
-/

set_option maxRecDepth 100000

namespace Verif.Conformance

/-- parser_test.go: with extension directive -/
example : Gives "database td; use a_ext{addr: '0x0000', seed: 3} as ext1;"
    ⟨"".toList, "td".toList, none, none, some [⟨"a_ext".toList, some [⟨"addr".toList, "'0x0000'".toList⟩, ⟨"seed".toList, "3".toList⟩], "ext1".toList⟩]⟩ := gives_of _ rfl (by decide +kernel)

/-- parser_test.go: table with text column -/
example : Gives "database td1; table tt1 { tc1 text}"
    ⟨"".toList, "td1".toList, some [⟨"tt1".toList, some [⟨"tc1".toList, "text".toList, none⟩], none, none⟩], none, none⟩ := gives_of _ rfl (by decide +kernel)

/-- parser_test.go: table with blob column with all attrs -/
example : Gives "database td1; table tt1 { tc1 blob minlen(3) maxlen(30) default(3) notnull primary unique }"
    ⟨"".toList, "td1".toList, some [⟨"tt1".toList, some [⟨"tc1".toList, "blob".toList, some [⟨"min_length".toList, some "3".toList⟩, ⟨"max_length".toList, some "30".toList⟩, ⟨"default".toList, some "3".toList⟩, ⟨"not_null".toList, none⟩, ⟨"primary_key".toList, none⟩, ⟨"unique".toList, none⟩]⟩], none, none⟩], none, none⟩ := gives_of _ rfl (by decide +kernel)

/-- parser_test.go: table with unique index -/
example : Gives "database td1; table tt1 { tc1 int, tc2 text, #idx1 unique (tc1,tc2) }"
    ⟨"".toList, "td1".toList, some [⟨"tt1".toList, some [⟨"tc1".toList, "int".toList, none⟩, ⟨"tc2".toList, "text".toList, none⟩], some [⟨"idx1".toList, some ["tc1".toList, "tc2".toList], "unique_btree".toList⟩], none⟩], none, none⟩ := gives_of _ rfl (by decide +kernel)

/-- parser_test.go: table with foreign key update restrict -/
example : Gives "database td1; \n\t\t\ttable tt1 { tc1 int, tc2 text }\n            table tt2 { tc1 int, tc2 text, foreign_key (tc1) references tt1 (tc1) on_update do restrict}"
    ⟨"".toList, "td1".toList, some [⟨"tt1".toList, some [⟨"tc1".toList, "int".toList, none⟩, ⟨"tc2".toList, "text".toList, none⟩], none, none⟩, ⟨"tt2".toList, some [⟨"tc1".toList, "int".toList, none⟩, ⟨"tc2".toList, "text".toList, none⟩], none, some [⟨some ["tc1".toList], some ["tc1".toList], "tt1".toList, some [⟨"UPDATE".toList, "RESTRICT".toList⟩]⟩]⟩], none, none⟩ := gives_of _ rfl (by decide +kernel)

/-- parser_test.go: table with foreign key update cascade -/
example : Gives "database td1; \n\t\t\ttable tt1 { tc1 int, tc2 text }\n            table tt2 { tc1 int, tc2 text, foreign_key (tc1) references tt1 (tc1) on_update do cascade}"
    ⟨"".toList, "td1".toList, some [⟨"tt1".toList, some [⟨"tc1".toList, "int".toList, none⟩, ⟨"tc2".toList, "text".toList, none⟩], none, none⟩, ⟨"tt2".toList, some [⟨"tc1".toList, "int".toList, none⟩, ⟨"tc2".toList, "text".toList, none⟩], none, some [⟨some ["tc1".toList], some ["tc1".toList], "tt1".toList, some [⟨"UPDATE".toList, "CASCADE".toList⟩]⟩]⟩], none, none⟩ := gives_of _ rfl (by decide +kernel)

/-- parser_test.go: table with foreign key delte set_null -/
example : Gives "database td1; \n\t\t\ttable tt1 { tc1 int, tc2 text }\n            table tt2 { tc1 int, tc2 text, foreign_key (tc1) references tt1 (tc1) on_delete set_null}"
    ⟨"".toList, "td1".toList, some [⟨"tt1".toList, some [⟨"tc1".toList, "int".toList, none⟩, ⟨"tc2".toList, "text".toList, none⟩], none, none⟩, ⟨"tt2".toList, some [⟨"tc1".toList, "int".toList, none⟩, ⟨"tc2".toList, "text".toList, none⟩], none, some [⟨some ["tc1".toList], some ["tc1".toList], "tt1".toList, some [⟨"DELETE".toList, "SET NULL".toList⟩]⟩]⟩], none, none⟩ := gives_of _ rfl (by decide +kernel)

/-- parser_test.go: table with foreign key two actions -/
example : Gives "database td1; \n\t\t\ttable tt1 { tc1 int, tc2 text }\n            table tt2 { tc1 int, tc2 text, foreign_key (tc1) references tt1 (tc1) on_delete cascade on_update restrict}"
    ⟨"".toList, "td1".toList, some [⟨"tt1".toList, some [⟨"tc1".toList, "int".toList, none⟩, ⟨"tc2".toList, "text".toList, none⟩], none, none⟩, ⟨"tt2".toList, some [⟨"tc1".toList, "int".toList, none⟩, ⟨"tc2".toList, "text".toList, none⟩], none, some [⟨some ["tc1".toList], some ["tc1".toList], "tt1".toList, some [⟨"DELETE".toList, "CASCADE".toList⟩, ⟨"UPDATE".toList, "RESTRICT".toList⟩]⟩]⟩], none, none⟩ := gives_of _ rfl (by decide +kernel)

/-- parser_test.go: action with owner -/
example : Gives "database td1; table tt1 { tc1 int, tc2 text }\n\t\t\taction act1() public owner { insert into tt1 (tc1, tc2) values (1, \"2\"); }"
    ⟨"".toList, "td1".toList, some [⟨"tt1".toList, some [⟨"tc1".toList, "int".toList, none⟩, ⟨"tc2".toList, "text".toList, none⟩], none, none⟩], some [⟨"act1".toList, none, none, true, "update".toList, some ["owner".toList], some ["insert into tt1 (tc1, tc2) values (1, \"2\");".toList]⟩], none⟩ := gives_of _ rfl (by decide +kernel)

/-- parser_test.go: action with sql update -/
example : Gives "database td1; table tt1 { tc1 int, tc2 text }\n\t\t\taction act1() public { update tt1 set tc1 = 1, tc2 = \"2\" where tc1 = 1; }"
    ⟨"".toList, "td1".toList, some [⟨"tt1".toList, some [⟨"tc1".toList, "int".toList, none⟩, ⟨"tc2".toList, "text".toList, none⟩], none, none⟩], some [⟨"act1".toList, none, none, true, "update".toList, none, some ["update tt1 set tc1 = 1, tc2 = \"2\" where tc1 = 1;".toList]⟩], none⟩ := gives_of _ rfl (by decide +kernel)

/-- parser_test.go: action with sql private -/
example : Gives "database td1; table tt1 { tc1 int, tc2 text }\n\t\t\taction act1($var1) private { select * from tt1 where tc1 = $var1; }"
    ⟨"".toList, "td1".toList, some [⟨"tt1".toList, some [⟨"tc1".toList, "int".toList, none⟩, ⟨"tc2".toList, "text".toList, none⟩], none, none⟩], some [⟨"act1".toList, none, some ["$var1".toList], false, "update".toList, none, some ["select * from tt1 where tc1 = $var1;".toList]⟩], none⟩ := gives_of _ rfl (by decide +kernel)

/-- parser_test.go: action with extension call refer to block variable -/
example : Gives "database td1;\n\t\t\tuse a_ext{addr: '0x0000', seed: 3} as ext1;\n\t\t\ttable tt1 { tc1 int, tc2 text }\n\t\t\taction act2() private \n\t\t\t{ $v = ext1.call(@caller, 'a', 'b'); }"
    ⟨"".toList, "td1".toList, some [⟨"tt1".toList, some [⟨"tc1".toList, "int".toList, none⟩, ⟨"tc2".toList, "text".toList, none⟩], none, none⟩], some [⟨"act2".toList, none, none, false, "update".toList, none, some ["$v=ext1.call(@caller,'a','b');".toList]⟩], some [⟨"a_ext".toList, some [⟨"addr".toList, "'0x0000'".toList⟩, ⟨"seed".toList, "3".toList⟩], "ext1".toList⟩]⟩ := gives_of _ rfl (by decide +kernel)

/-- parser_test.go: with init -/
example : Gives "database td1; table tt1 { tc1 int, tc2 text }\n\t\t\t\t  init() { insert into tt1 values (1, '2'); }"
    ⟨"".toList, "td1".toList, some [⟨"tt1".toList, some [⟨"tc1".toList, "int".toList, none⟩, ⟨"tc2".toList, "text".toList, none⟩], none, none⟩], some [⟨"init".toList, none, none, false, "update".toList, none, some ["insert into tt1 values (1, '2');".toList]⟩], none⟩ := gives_of _ rfl (by decide +kernel)

/-- parser_test.go: use keyword as database name -/
example : Fails "database database; table tt1 { tc1 int, tc2 text }" .invalidSyntax := fails_of _ rfl (by decide +kernel)

/-- parser_test.go: use keyword as action name -/
example : Fails "database td1; table tt1 { tc1 int, tc2 text }\n\t\t\t\t\taction select() public { select * from tt1; }" .invalidSyntax := fails_of _ rfl (by decide +kernel)

/-- parser_test.go: use double quote for string -/
example : Fails "database td; use a_ext{addr: \"0x0000\", seed: 3} ax ext1;" .invalidSyntax := fails_of _ rfl (by decide +kernel)

/-- parser_test.go: attr minlen for int column -/
example : Fails "database td1; table tt1 { tc1 int minlen(10)}" .attributeNotAllow := fails_of _ rfl (by decide +kernel)

/-- parser_test.go: dup extension -/
example : Fails "database td1; use erc20 as token; use erc712 as token;" .duplicateExtension := fails_of _ rfl (by decide +kernel)

/-- parser_test.go: dup index -/
example : Fails "database td1; table tt1 { tc1 int, tc2 text, #idx1 index(tc1), #idx1 index(tc2) }" .duplicateIndex := fails_of _ rfl (by decide +kernel)

/-- parser_test.go: dup on-action for foreieng key -/
example : Fails "database td1; \n\t\t\ttable tt1 { tc1 int, tc2 text }\n            table tt2 { tc1 int, tc2 text, \n\t\t\t\t\t    fk (tc1) ref tt1 (tc1) on_delete do cascade on_delete do restrict}" .dupFKAction := fails_of _ rfl (by decide +kernel)

/-- parser_test.go: column not found in index -/
example : Fails "database td1; table tt1 { tc1 int, #idx1 index(tc2)}" .columnNotFound := fails_of _ rfl (by decide +kernel)

/-- parser_test.go: action not found -/
example : Fails "database td1; action act2() public { act1(); }" .actionNotFound := fails_of _ rfl (by decide +kernel)

/-- parser_test.go: block variable not found in action call -/
example : Fails "database td1; action act1($name) public {select *;} action act2() public { act1(@nondefined); }" .variableNotFound := fails_of _ rfl (by decide +kernel)

/-- parser_test.go: action visibility already set -/
example : Fails "database td1; action act1() public private { select *; }" .actionVisibilityAlreadySet := fails_of _ rfl (by decide +kernel)

/-- parser_test.go: action auxiliary already set -/
example : Fails "database td1; action act1() owner view public owner { select *; }" .actionAuxiliaryAlreadySet := fails_of _ rfl (by decide +kernel)

/-- annotation_test.go: invalid missing parenthesis -/
example : parseAnnotation "t(a=1".toList = .error "invalid annotation: t(a=1".toList := by decide +kernel

/-- annotation_test.go: multiple int and string -/
example : parseAnnotation "t(a=1,b='1',c=323,d='whatever')".toList =
    .ok ⟨"t".toList, [⟨"a".toList, "1".toList⟩, ⟨"b".toList, "'1'".toList⟩, ⟨"c".toList, "323".toList⟩, ⟨"d".toList, "'whatever'".toList⟩]⟩ := by decide +kernel

end Verif.Conformance
