import Verif.Props.Conformance
/-!
# The project's own test cases, part 1 of 3
-/

set_option maxRecDepth 100000

namespace Verif.Conformance

/-- parser_test.go: only database clause -/
example : Gives "database td;"
    ⟨"".toList, "td".toList, none, none, none⟩ := gives_of _ rfl (by decide +kernel)

/-- parser_test.go: table with int column with all attrs -/
example : Gives "database td1; table tt1 { tc1 int min(3) max(30) default(3) notnull primary unique }"
    ⟨"".toList, "td1".toList, some [⟨"tt1".toList, some [⟨"tc1".toList, "int".toList, some [⟨"min".toList, some "3".toList⟩, ⟨"max".toList, some "30".toList⟩, ⟨"default".toList, some "3".toList⟩, ⟨"not_null".toList, none⟩, ⟨"primary_key".toList, none⟩, ⟨"unique".toList, none⟩]⟩], none, none⟩], none, none⟩ := gives_of _ rfl (by decide +kernel)

/-- parser_test.go: table with blob column -/
example : Gives "database td1; table tt1 { tc1 blob}"
    ⟨"".toList, "td1".toList, some [⟨"tt1".toList, some [⟨"tc1".toList, "blob".toList, none⟩], none, none⟩], none, none⟩ := gives_of _ rfl (by decide +kernel)

/-- parser_test.go: table with index index -/
example : Gives "database td1; table tt1 { tc1 int, tc2 text, #idx1 index (tc1,tc2) }"
    ⟨"".toList, "td1".toList, some [⟨"tt1".toList, some [⟨"tc1".toList, "int".toList, none⟩, ⟨"tc2".toList, "text".toList, none⟩], some [⟨"idx1".toList, some ["tc1".toList, "tc2".toList], "btree".toList⟩], none⟩], none, none⟩ := gives_of _ rfl (by decide +kernel)

/-- parser_test.go: table with foreign key update no_action -/
example : Gives "database td1; \n\t\t\ttable tt1 { tc1 int, tc2 text }\n            table tt2 { tc1 int, tc2 text, foreign_key (tc1) references tt1 (tc1) on_update do no_action,}"
    ⟨"".toList, "td1".toList, some [⟨"tt1".toList, some [⟨"tc1".toList, "int".toList, none⟩, ⟨"tc2".toList, "text".toList, none⟩], none, none⟩, ⟨"tt2".toList, some [⟨"tc1".toList, "int".toList, none⟩, ⟨"tc2".toList, "text".toList, none⟩], none, some [⟨some ["tc1".toList], some ["tc1".toList], "tt1".toList, some [⟨"UPDATE".toList, "NO ACTION".toList⟩]⟩]⟩], none, none⟩ := gives_of _ rfl (by decide +kernel)

/-- parser_test.go: table with foreign key update set_default -/
example : Gives "database td1; \n\t\t\ttable tt1 { tc1 int, tc2 text }\n            table tt2 { tc1 int, tc2 text, foreign_key (tc1) references tt1 (tc1) on_update do set_default}"
    ⟨"".toList, "td1".toList, some [⟨"tt1".toList, some [⟨"tc1".toList, "int".toList, none⟩, ⟨"tc2".toList, "text".toList, none⟩], none, none⟩, ⟨"tt2".toList, some [⟨"tc1".toList, "int".toList, none⟩, ⟨"tc2".toList, "text".toList, none⟩], none, some [⟨some ["tc1".toList], some ["tc1".toList], "tt1".toList, some [⟨"UPDATE".toList, "SET DEFAULT".toList⟩]⟩]⟩], none, none⟩ := gives_of _ rfl (by decide +kernel)

/-- parser_test.go: table with foreign key delete restrict -/
example : Gives "database td1; \n\t\t\ttable tt1 { tc1 int, tc2 text }\n            table tt2 { tc1 int, tc2 text, foreign_key (tc1) references tt1 (tc1) on_delete restrict}"
    ⟨"".toList, "td1".toList, some [⟨"tt1".toList, some [⟨"tc1".toList, "int".toList, none⟩, ⟨"tc2".toList, "text".toList, none⟩], none, none⟩, ⟨"tt2".toList, some [⟨"tc1".toList, "int".toList, none⟩, ⟨"tc2".toList, "text".toList, none⟩], none, some [⟨some ["tc1".toList], some ["tc1".toList], "tt1".toList, some [⟨"DELETE".toList, "RESTRICT".toList⟩]⟩]⟩], none, none⟩ := gives_of _ rfl (by decide +kernel)

/-- parser_test.go: table with foreign key delete cascade -/
example : Gives "database td1; \n\t\t\ttable tt1 { tc1 int, tc2 text }\n            table tt2 { tc1 int, tc2 text, foreign_key (tc1) references tt1 (tc1) on_delete cascade}"
    ⟨"".toList, "td1".toList, some [⟨"tt1".toList, some [⟨"tc1".toList, "int".toList, none⟩, ⟨"tc2".toList, "text".toList, none⟩], none, none⟩, ⟨"tt2".toList, some [⟨"tc1".toList, "int".toList, none⟩, ⟨"tc2".toList, "text".toList, none⟩], none, some [⟨some ["tc1".toList], some ["tc1".toList], "tt1".toList, some [⟨"DELETE".toList, "CASCADE".toList⟩]⟩]⟩], none, none⟩ := gives_of _ rfl (by decide +kernel)

/-- parser_test.go: action with view -/
example : Gives "database td1; table tt1 { tc1 int, tc2 text }\n\t\t\taction act1() public view { insert into tt1 (tc1, tc2) values (1, \"2\"); }"
    ⟨"".toList, "td1".toList, some [⟨"tt1".toList, some [⟨"tc1".toList, "int".toList, none⟩, ⟨"tc2".toList, "text".toList, none⟩], none, none⟩], some [⟨"act1".toList, none, none, true, "view".toList, none, some ["insert into tt1 (tc1, tc2) values (1, \"2\");".toList]⟩], none⟩ := gives_of _ rfl (by decide +kernel)

/-- parser_test.go: action with sql insert -/
example : Gives "database td1; table tt1 { tc1 int, tc2 text }\n\t\t\taction act1() public { insert into tt1 (tc1, tc2) values (1, \"2\"); }"
    ⟨"".toList, "td1".toList, some [⟨"tt1".toList, some [⟨"tc1".toList, "int".toList, none⟩, ⟨"tc2".toList, "text".toList, none⟩], none, none⟩], some [⟨"act1".toList, none, none, true, "update".toList, none, some ["insert into tt1 (tc1, tc2) values (1, \"2\");".toList]⟩], none⟩ := gives_of _ rfl (by decide +kernel)

/-- parser_test.go: action with sql select -/
example : Gives "database td1; table tt1 { tc1 int, tc2 text }\n\t\t\taction act1($var1) public { select * from tt1 where tc1 = $var1; }"
    ⟨"".toList, "td1".toList, some [⟨"tt1".toList, some [⟨"tc1".toList, "int".toList, none⟩, ⟨"tc2".toList, "text".toList, none⟩], none, none⟩], some [⟨"act1".toList, none, some ["$var1".toList], true, "update".toList, none, some ["select * from tt1 where tc1 = $var1;".toList]⟩], none⟩ := gives_of _ rfl (by decide +kernel)

/-- parser_test.go: action with action call refer to block variable -/
example : Gives "database td1; table tt1 { tc1 int, tc2 text }\n\t\t\taction act1($var1, $var2, $var3) private \n\t\t\t{ select * from tt1 where tc1 = $var1 or tc2 = $var2 or tc2 = $var3; }\n\t\t\taction act2() private \n\t\t\t{ act1(@caller, 'a', 'b'); }"
    ⟨"".toList, "td1".toList, some [⟨"tt1".toList, some [⟨"tc1".toList, "int".toList, none⟩, ⟨"tc2".toList, "text".toList, none⟩], none, none⟩], some [⟨"act1".toList, none, some ["$var1".toList, "$var2".toList, "$var3".toList], false, "update".toList, none, some ["select * from tt1 where tc1 = $var1 or tc2 = $var2 or tc2 = $var3;".toList]⟩, ⟨"act2".toList, none, none, false, "update".toList, none, some ["act1(@caller,'a','b');".toList]⟩], none⟩ := gives_of _ rfl (by decide +kernel)

/-- parser_test.go: action with annotation -/
example : Gives "database td1;\n\t\t    @you(speak='english',  level=2)\n            @you(speak='english', level=6)\n            action act1() public { select *; }\n\t\t\t"
    ⟨"".toList, "td1".toList, none, some [⟨"act1".toList, some ["you(speak='english',level=2)".toList, "you(speak='english',level=6)".toList], none, true, "update".toList, none, some ["select *;".toList]⟩], none⟩ := gives_of _ rfl (by decide +kernel)

/-- parser_test.go: invalid parameter -/
example : Fails "database td1; table tt1 { tc1 int, tc2 text }\n\t\t\taction act1($1) private { select * from tt1; }" .invalidSyntax := fails_of _ rfl (by decide +kernel)

/-- parser_test.go: use keyword as column name -/
example : Fails "database td1; table tt1 { select int, tc2 text }" .invalidSyntax := fails_of _ rfl (by decide +kernel)

/-- parser_test.go: extension without alias -/
example : Fails "database td; use a_ext{addr: '0x0000', seed: 3};" .invalidSyntax := fails_of _ rfl (by decide +kernel)

/-- parser_test.go: attr max for text column -/
example : Fails "database td1; table tt1 { tc1 text max(10)}" .attributeNotAllow := fails_of _ rfl (by decide +kernel)

/-- parser_test.go: dup table -/
example : Fails "database td1; table tt1 { tc1 int, tc2 text } table tt1 { tc1 int, tc2 text }" .duplicateTable := fails_of _ rfl (by decide +kernel)

/-- parser_test.go: dup attribute -/
example : Fails "database td1; table tt1 { tc1 int primary primary,}" .duplicateAttribute := fails_of _ rfl (by decide +kernel)

/-- parser_test.go: dup parameter -/
example : Fails "database td1; action act1($var1, $var1) public {select * from tt1;}" .duplicateParam := fails_of _ rfl (by decide +kernel)

/-- parser_test.go: table not found in fk -/
example : Fails "database td1; \n            table tt2 { tc1 int, tc2 text, \n\t\t\t\t\t    fk (tc1) ref tt1 (tc1) on_delete cascade}" .tableNotFound := fails_of _ rfl (by decide +kernel)

/-- parser_test.go: column not found in fk parent keys -/
example : Fails "database td1; table tt1 { tc1 int, tc2 text } table tt2 { tc1 int, tc2 text, fk (tc1) ref tt1 (tc3) on_delete cascade }" .columnNotFound := fails_of _ rfl (by decide +kernel)

/-- parser_test.go: variable not found in extension call -/
example : Fails "database td1; use erc20 as token; action act2() public { $var1 = token.balanceOf($nondefined); }" .variableNotFound := fails_of _ rfl (by decide +kernel)

/-- parser_test.go: extension not found -/
example : Fails "database td1; use erc20 as token; action act2($param) public { $var1, $var1 = erc.balanceOf($param); }" .extensionNotFound := fails_of _ rfl (by decide +kernel)

/-- parser_test.go: action mutability already set -/
example : Fails "database td1; action act1() view public view { select *; }" .actionMutabilityAlreadySet := fails_of _ rfl (by decide +kernel)

/-- annotation_test.go: invalid not complete -/
example : parseAnnotation "t".toList = .error "invalid annotation: t".toList := by decide +kernel

/-- annotation_test.go: single string -/
example : parseAnnotation "t(a='1')".toList =
    .ok ⟨"t".toList, [⟨"a".toList, "'1'".toList⟩]⟩ := by decide +kernel

end Verif.Conformance
