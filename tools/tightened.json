{
 "m036": {
  "comment": "equivalent edit kept as a control: the program behaves the same, nothing should fail"
 },
 "m020": {
  "comment": "equivalent edit kept as a control: the proofs that fell are syntactic, the claim is still true"
 },
 "m035": {
  "comment": "C43 rightly holds (the log still agrees with the value returned); C29 falls"
 },
 "n017": {
  "theorems": [
   "C32_roundtrip",
   "C32_tag_roundtrip",
   "C32_braced_tag_roundtrip",
   "C47_column",
   "C47_table"
  ],
  "comment": "C32 covered only braced values; the written modifiers now include bare values (Spec.Modifier.bare), and the edit breaks it"
 },
 "n026": {
  "theorems": [
   "C05_spelling",
   "C06_anonymous_placeholders",
   "C07_no_unused_argument",
   "C13_values"
  ],
  "comment": "the statements took the numbered dialects from the model; they are now listed in Spec.numberedDialects, and C05_spelling (new) fixes the spelling of every placeholder"
 },
 "n025": {
  "theorems": [],
  "comment": "C13 speaks of formats in which a name has one value, where the edit changes nothing; rebinding is C09, which fell together with C07"
 },
 "n033": {
  "theorems": [
   "C55_applies"
  ],
  "comment": "not seen by C23; the separators are stated in C55"
 },
 "r016": {
  "theorems": [
   "C55_applies"
  ],
  "comment": "first run before C55 existed: no theorem failed; C55 states the clause texts"
 },
 "r037": {
  "theorems": [
   "C55_applies"
  ],
  "comment": "first run before C55 existed: no theorem failed; C55 states the clause texts"
 },
 "r046": {
  "theorems": [
   "C55_applies"
  ],
  "comment": "first run before C55 existed: no theorem failed; C55 states the clause texts"
 },
 "r043": {
  "theorems": [
   "C56_modifiers"
  ],
  "comment": "first run before C56 existed: no theorem failed; C56 states the modifiers of a field"
 },
 "s001": {
  "theorems": [
   "C59_tags_partial",
   "C59_table_partial"
  ],
  "comment": "survived C46/C47; C59 states what each declaration declares"
 },
 "s008": {
  "theorems": [
   "C59_tags_partial",
   "C59_table_partial"
  ],
  "comment": "survived C46/C47; C59 states what each declaration declares"
 },
 "s013": {
  "theorems": [
   "C59_tags_partial",
   "C59_table_partial"
  ],
  "comment": "survived C46/C47; C59 states what each declaration declares"
 },
 "s017": {
  "theorems": [
   "C33_functions_refreshed"
  ],
  "comment": "survived; theorem added"
 },
 "s027": {
  "theorems": [
   "C60_written_partial"
  ],
  "comment": "survived; C60 states the command that is written"
 },
 "s037": {
  "theorems": [
   "C63_if_exists",
   "C63_parts_violated"
  ],
  "comment": "survived; theorem added"
 },
 "s050": {
  "theorems": [
   "C63_if_exists",
   "C63_parts_violated"
  ],
  "comment": "survived; theorem added"
 },
 "s062": {
  "theorems": [
   "C51_trigger_named"
  ],
  "comment": "survived; theorem added"
 },
 "s083": {
  "theorems": [
   "C56_column"
  ],
  "comment": "survived; theorem added"
 },
 "s078": {
  "theorems": [],
  "comment": "the edit is another spelling of the same function"
 },
 "s079": {
  "theorems": [],
  "comment": "the edit is another spelling of the same function"
 },
 "u017": {
  "theorems": [],
  "comment": "harmless: the specification accepts JSON and JSONB alike on this dialect"
 },
 "u018": {
  "theorems": [],
  "comment": "harmless: the specification accepts UUID and BINARY(16) alike on this dialect"
 },
 "u044": {
  "theorems": [
   "C65_literals_partial"
  ],
  "comment": "no theorem said what literal an argument is given; added, the mutant is rerun in the next batch"
 },
 "u045": {
  "theorems": [
   "C65_literals_partial"
  ],
  "comment": "no theorem said what literal an argument is given; added, the mutant is rerun in the next batch"
 },
 "v004": {
  "theorems": [
   "Sq.Logging.C68_kind_exists_partial"
  ],
  "comment": "survived at first (only an example failed): the kind logged for FetchExists had no theorem"
 },
 "v027": {
  "theorems": [
   "Sq.Fetching.C29_exists_ok",
   "Sq.Logging.C68_refines_exists"
  ],
  "comment": "survived at first: which errors FetchExists must report was only stated for successful calls, and the two models of FetchExists were not tied together"
 },
 "v028": {
  "theorems": [
   "Sq.Fetching.C29_exists_ok",
   "Sq.Logging.C68_refines_exists",
   "Sq.Logging.C68_refines_exec"
  ],
  "comment": "as v027"
 },
 "v055": {
  "theorems": [
   "Ddl.Default.C70_mysql"
  ],
  "comment": "survived at first: the MySQL branch of toExpr had no theorem"
 },
 "w034": {
  "theorems": [
   "C24_constructors_partial"
  ],
  "comment": "no theorem tied the constructors to the operators they are named after; C24_constructors_partial now does"
 }
}