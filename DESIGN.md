# Formal model of kwilteam/kuneiform in Lean 4 — design

Source: `/repo` (read only). Lean project: `/verif/lean`, library `Verif`.

## What is modelled, and how

| module | models | source |
|---|---|---|
| `Model/Token.lean` | token types, tokens | `kfgrammar/kuneiform_lexer.go` |
| `Model/Regex.lean`, `LexRules.lean`, `Lexer.lean` | regular expressions with a derivative matcher; the 84 lexer rules; the maximal-munch loop | lexer ATN |
| `Model/LexSim.lean` | `LexerATNSimulator` on the decoded lexer tables: configurations, closure, reach, accepting states | `kuneiform_lexer.go`, antlr `lexer_atn_simulator.go` |
| `Model/Predict.lean` | `ParserATNSimulator.AdaptivePredict`, first stage, on the decoded parser tables: configurations, closure, precedence filter, reach, predicates | `kuneiform_parser.go`, antlr `parser_atn_simulator.go` |
| `Model/Report.lean` | line and column of the first syntax report: positions of tokens, the token at which the run of the generated code stops | antlr `DefaultErrorStrategy`, `utils/error_listener.go:58` |
| `Model/Recover.lean` | the run of the generated code through all errors: `errorExit` blocks and ANTLR's error strategy, its token sets left open; the lexer after an error | `kfgrammar/kuneiform_parser.go` (`errorExit`), antlr `DefaultErrorStrategy`, `Lexer.NextToken` |
| `Model/AtnData.lean`, `Atn.lean` | the two `serializedATN` arrays copied verbatim, an ATN decoder and decompiler | `kuneiform_lexer.go`, `kuneiform_parser.go` |
| `Model/Grammar.lean`, `Parser.lean` | the grammar rules, annotated with the lookahead decision of the generated Go code; a predictive parser that executes them and builds the tree | `kuneiform_parser.go` |
| `Model/GoCode.lean`, `GoParser.lean` | the 51 generated rule functions, statement by statement (translated by a script), and their execution on the runtime | `kuneiform_parser.go:715-8782` |
| `Model/Schema.lean`, `Types.lean` | schema types and constants; `GetColumnType`, `GetAttributeType`, `GetIndexType` | `schema/schema.go`, `schema/types.go` |
| `Model/Visitor.lean` | `KFVisitor`, panics as values | `kfparser/visitor.go` |
| `Model/Trace.lean` | the same visitor with the lines it prints in trace mode | `kfparser/visitor.go` |
| `Model/ContextData.lean`, `Contexts.lean` | the generated context types: 213 getters (bodies, signatures), interfaces, constructors, `Accept` (tables read by a script), their execution with type assertions; `KFVisitor` with dynamic dispatch | `kuneiform_parser.go:455-8782`, `kuneiformparser_visitor.go`, `kuneiformparser_base_visitor.go`, `kfparser/visitor.go` |
| `Model/Validator.lean` | `ContextValidator`, with its mutable maps | `schema/validator.go` |
| `Model/Errors.lean`, `ParseKF.lean` | error values, `ErrorList`, `ParseKF` with its deferred recover, a client with several calls | `utils/error_listener.go`, `schema/errors.go`, `kfparser/parser.go` |
| `Model/Annotation.lean` | `ParseAnnotation`, its regexp (leftmost-first matching), `strings.Split`/`Trim`... | `utils/annotation.go` |
| `Model/Json.lean` | `ToJSON`: `encoding/json` `MarshalIndent` of the schema (compact writer with HTML escaping, then `Indent`) | `schema/schema.go` |
| `Model/Utf8.lean` | `[]rune(data)`: Go's UTF-8 decoder | call at `kfparser/parser.go:41` |
| `Model/Path.lean`, `Cli.lean` | `filepath.Base/Ext/Clean/Join`; pflag command line, the command, `writeToFile`, `main`, over an oracle for every system call | `cmd/root.go`, `main.go` |
| `Model/Wasm.lean` | the wasm wrapper | `wasm/wasm.go` |
| `Model/Threads.lean` | `ParseKF` as atomic steps on shared listeners and output; schedules | `kfparser/parser.go` |
| `Model/Expected.lean` | the expected tokens of the first syntax error and their names | tables in `kfgrammar/kuneiform_parser.go`; states set before `Match` |
| `Model/Runs.lean` | several runs of the command, one after the other | `main.go`, `cmd/root.go` |
| `Model/Crash.lean` | the contents of all files at every moment of a run | `cmd/root.go` |
| `Model/Accept.lean` | `Accept` of single nodes on a validator in any state | `schema/schema.go`, `schema/validator.go` |

`Verif/Spec/*` holds the specifications, which do not mention the model's
functions: the language of regular expressions and the maximal-munch rule
(`Lexical`), grammar derivations (`Derivation`), surface programs with their
tokens and meaning (`Program`, `Source`), names and reserved words (`Words`),
texts of tokens and schemas that can be written (`Canonical`), static rules
(`Validity`), a JSON reader (`Json`), UTF-8 (`Utf8`), directory graphs
(`Path`), annotation attributes (`Annotation`), error texts (`Messages`), command lines
(`CommandLine`), lines of JSON (`JsonLayout`), visits (`Trace`), reorderings of a program (`Reorder`), rules in reading order
(`Rules`), added declarations (`Edit`), paths through an ATN and the contract of `AdaptivePredict`
(`Predict`), the place of the first syntax error (`Position`), parts of a text (`CommentOut`, `Join`), nesting (`Brackets`).  `Verif/Proof/*` holds the
lemmas, `Verif/Props/*` the property theorems (named `Cnn_...`) and examples
showing that their hypotheses can be met.

## Plan per property

* **C01, C02, C03** — parse trees and a derivation relation `Gen` for the
  grammar; the parser is proved sound and complete for it (the lookahead
  analysis is checked by the kernel on the whole grammar table; operator
  expressions by a separate argument), hence readings are unique.
  `decompile serializedATN = grammar` is checked by the kernel, so the
  grammar is the one in the code, not a transcription.
* **C04** — derivative matcher proved correct against the language of a
  regular expression; the lexer loop proved lossless and maximal-munch
  (C66: and equal to the simulation on the generated tables).
* **C05** — no rule's match can run across an inserted separator, except in
  the three excluded positions.
* **C06, C07, C08, C09, C28, C42, C45** — surface programs: an AST with
  spelling choices, its token sequence and its meaning; every sentence is a
  program and vice versa; the visitor computes the meaning.
* **C10–C19, C46** — `validate = none ↔ ValidSchema` with a declarative
  `ValidSchema`, plus soundness of each error kind.
* **C20–C24** — `ParseKF` as a function on listener state, panics included.
* **C25–C27** — text of statements through the lexer and the visitor.
* **C29, C30** — regexp model and the annotation texts.
* **C31–C34** — JSON writer against an independent JSON reader.
* **C35–C39** — CLI as a function with an oracle for the outcomes of system
  calls.  **C40** — wasm wrapper.
* **C41** — lookups over Unicode lower-casing.
* **C43** — token texts characterised, plain printer, and the image of `Parse`.
* **C48** — literal message texts (`Spec/Messages`) against the defect found.
* **C49** — items of a command line against the flag reader, both directions.
* **C50** — JSON as lines; the two-pass writer is proved equal to it.
* **C51** — a writer-monad copy of the visitor, proved to compute the same
  result as the silent one, and its output against the list of visits.
* **C52** — threads: a call's view of its own listener, position and lines is
  independent of the steps of others (simulation), a decreasing rank gives
  progress, an invariant covers shared listeners.
* **C53** — all moments of a run, including a write cut anywhere.
* **C54** — first token of a statement and its characters.
* **C55** — validity is invariant under matching of declarations.
* **C56** — last elements of input and output path.  **C57** — the visitors of
  nodes against the rules for that node.
* **C58** — the rules as a list in reading order; every loop of the validator
  is proved to report the first broken rule of its part of the list.
* **C59** — validity is monotone in what is declared.
* **C60** — the statements of the generated functions (`goCode`) with their
  guards, bit masks, case numbers, state numbers and precedences.  Erasing
  the control flow gives the grammar (`goCode_g`, by `rfl` per rule), so a run
  without error is a derivation whatever `AdaptivePredict` answers.  For the
  converse, ATN paths are proved equivalent to derivations (states carry the
  rest of their rule, checked by the kernel on all states), and at every
  decision the kernel checks on the tables that tests and alternative numbers
  pick the branch through which the rest can be consumed.  A rank argument
  gives termination.
* **C61** — the rule list of C58 does not look at what `blank` erases.
  **C62** — adding an SQL statement that is accepted somewhere.  **C63** — the
  argument check on block variables.
* **C64** — documented files (`Spec/Docs`) translated to programs with the same
  tokens.  **C65** — validity is invariant under injective renamings.
* **C66** — every state of the lexer ATN is annotated with what can follow in
  its rule; the kernel checks the annotations on all 614 states.  Invariants of
  the configuration sets follow by induction: each configuration belongs to a
  rule, is sound for it, rules other than the block comment lose nothing, sets
  are in the order of rules.  The configurations of the block comment evolve on
  their own and are those of a six-state automaton that stops at the first
  `*/`.
* **C67** — the kernel computes the start configurations of the five decisions
  and the answers after each first and, where needed, second token; precedences
  matter only up to 11.  The answers agree with the tests in the grammar, so
  C60 applies.  That the answer is the first viable alternative for every chain
  of calls follows from what can follow a rule; for an operator after an
  operand, a derivation that leaves the expression is turned into one that
  stays in it.
* **C68** — the run of the generated code, up to its first error, has consumed a
  prefix of a sentence (every state it passes can still reach the end of a
  sentence), and the same run happens on every text with the same tokens up to
  and including the offending one; so no sentence goes on with it.  Both are
  inductions over the statements of the generated code; where prediction
  decides, it dies at the token after which no path through the tables goes on.
  Lines and columns are counted over the characters of the tokens.
* **C69** — termination: tokens left, whether `Recover` was at this token
  already, and the states not yet seen there make up a weight that falls with
  every step of progress, and the kernel checks for every statement of the
  generated code and every next token that between two such steps the calls
  are at most 40 deep and every loop makes progress.  Count: every report is paid for by a
  token (a second one needs a match or a deletion in between).  First report: until
  then the run is that of C68.  All by induction over the statements, for every
  `Strategy`, so for all token sets that ANTLR may compute.
* **C70** — the tokens of a prefix are those of the text up to the cut, and those
  of what is left of the token that is cut; the latter can only matter if they
  contain a `;` or `}`, so the token was a string or a comment, and then they are
  no tokens at all, or `/` `*` stand side by side, which no sentence has.  Token
  lists of declarations are prefix-free.  Bytes: an incomplete character is
  decoded to U+FFFD, which can only stand in a line comment at the end.
* **C71** — from C25 (statements are verbatim, without `;` and `}`) and C43 (every
  program can be written).
* **C72** — the loops of the six shapes of getters are evaluated by induction over
  the children; that the tables fit together (name, shape, result type, unique
  method names, interfaces that no other type satisfies) is checked by the
  kernel.  The visitor with dynamic dispatch equals the one with direct calls
  method by method, for any tree.  Children of a kind are counted in the
  right-hand sides: a method without index exists only where one is the most.
* **C73** — induction over the tokens: a token stays the next one when the line
  ends after it change, and only SQL statements and comments have line ends in
  them; then programs, schemas and the rules.
* **C74** — induction over the calls, each by C36; files with the same stem get the
  same output path.
* **C75** — the sets of tokens that `Match`, set tests and `Sync` expect, along the
  modelled run; paths of the ATN from the reporting state are completed to
  derivations, so that each expected token continues what was read.
* **C76** — both entry points reduced to `ParseKF` on the decoded text (C35, C36, C40).
* **C77** — the tokenisation is cut at the declaration; a block comment, or a line
  comment per line, is layout, and layout between tokens changes nothing (C05); C59.
* **C78** — tokens of the second file after those of the first with layout between
  them; validity of a union of schemas (rules are monotone but for distinct names).
* **C79** — tokens of every program are nested (structural induction); counts differ
  by one after the edit; the tokens of the edited text by the lemma of C77.
* **C80** — adjacent token types (digrams of the grammar) and one bit of context (inside
  a body or not) along the tokens of every program: two programs never differ by one `;`.
* **C44** — words against the rule table. **C47** — UTF-8 decoder.

Properties that the code violates (C13, C14, C17, C22, C27, C29, C36, C37,
C39, C45, C55, C56, C57, C61, C62, C63, C64, C71, C73, C74) are proved in the form: the negation with a concrete witness
(`_violated`), and a `_partial` theorem saying what does hold.

## Trusted base

* Lean 4.33.0's kernel.  No axioms are added; theorems depend at most on
  `propext`, `Classical.choice` and `Quot.sound`.  Facts about concrete tables
  use `decide +kernel` (kernel evaluation; no compiled code).  No Mathlib
  module is imported.
* The transcription of the Go code into the model (each definition cites its
  lines), of the two ATN arrays (copied by script) and of the generated rule
  functions (translated by script).

### Behaviour of code outside the repository that the model relies on

* **antlr runtime, lexer**: `LexerATNSimulator` works as modelled in
  `Model/LexSim.lean` (written from the algorithm of antlr v4.13.0, whose source
  is not in the sandbox; its DFA cache is left out, contexts are stacks); a
  position without a match is reported to the listener.
* **antlr runtime, parser**: `Match`, `Consume` and `LA` on the token stream;
  the ATN deserializer reads the format as modelled in `Atn.lean`; `Sync`
  reports nothing if the next token may follow the state or the rule may end
  there (`SyncOk`).  C60 assumes of `AdaptivePredict` only that it answers
  right where the next two tokens are enough to tell (`Runtime.TwoTokens`,
  stated on the tables only, implied by ALL(*); C01 needs only that answers are
  in range).  C67 replaces this contract by the algorithm itself
  (`ParserATNSimulator`, first stage, without its DFA cache): there the trusted
  part is that Model/Predict renders that algorithm.  What happens
  after the first reported error (recovery, messages, further reports, a
  possible panic) is arbitrary (`World`).  The position of the first report is
  arbitrary too, except in C68: there the two `C68_message` theorems assume
  (`World.Points`) that it is one of the places of `Model/Report.lean`.  That
  model says: `Match` that fails, `Sync` that refuses and the `default` branch
  of a `switch` report the current token; `AdaptivePredict` that fails reports
  the token at which it ran out of configurations; the lexer reports the start
  of the token it could not read, when the parser first asks for it;
  `SingleTokenDeletion` may ask for the token after the offending one before
  the report.  `Model/Recover.lean` goes on after the first error; C69 assumes
  (`World.Recovers`) that the reports come from there.  It renders
  `DefaultErrorStrategy` (v4.13.0: `Sync`, `RecoverInline`,
  `SingleTokenDeletion`, `SingleTokenInsertion`, `ReportError`, `Recover`,
  `consumeUntil`) and the `errorExit` blocks, with all token sets and state
  numbers left open, and the lexer dropping at least one character per error.
  A panic inside the runtime while it recovers stays possible (`World.crash`).
* **antlr runtime, trees** (C72): `GetToken` and `GetTokens` look at the
  terminals among the children in order, `GetChildren` has them in the order in
  which they were added, `VisitChildren` and `VisitTerminal` return nil.
* **kwil-db parsers** (`actparser.Parse`, `sqlparser.ParseSql`, `ToSQL`): an
  arbitrary deterministic function of their argument, panics included (`Env`).
* **Go**: `[]rune` conversion, `encoding/json` (sorting does not arise: no
  maps; string escaping; `omitempty`), `regexp` leftmost-first matching,
  `strings`, Unicode simple lower-casing (for C41: which code points lower to
  ASCII letters), `path/filepath` on Unix, `os.File.Write` contract (an error
  iff fewer bytes than asked are written), `fmt.Errorf("%w")` text and
  unwrapping, `recover`.
* **cobra/pflag**: command-line reading is modelled (`--x=v`, `--x v`, `-ab`,
  `--`, `help`); texts of usage messages, the hidden completion commands and
  the build-time version string are not.

### Not modelled

* The text of antlr's syntax-error messages, the text of usage/help output.
* The graphics/JS interop of `wasm.go` beyond conversion of arguments and
  results; lone surrogates in JavaScript strings.
* Data races: calls are interleaved in atomic steps (an append to a listener,
  a printed line); what unsynchronised appends to one shared listener do below
  that is not modelled.  No code in the repository starts goroutines; the
  caches inside the antlr runtime are taken to be guarded by it.
* Power loss: bytes written by a killed process count as written (C53).
* Raw invalid UTF-8 bytes inside `ParseAnnotation` (texts are characters), and
  file names that are not UTF-8.
* Resource exhaustion: stack overflow and memory limits.

## Testing the model

`Props/Conformance*.lean` runs all cases of the project's own tests
(`kfparser/parser_test.go`, `utils/annotation_test.go`) in the model; the
model gives the expected result in each.  These are tests, not theorems.

## Testing the theorems

`seeded/LOG.jsonl` records edits of the model in the way a bug would change
the program, and which theorems stop proving.
