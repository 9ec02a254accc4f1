[
 [
  "room",
  "SELECT * {?s ?p ?o.OPTIONAL{$o ?q 1 .?x ?y (2)}}"
 ],
 [
  "proj",
  "SELECT ?a (COUNT(?o) AS ?n) {?a ?p ?o {SELECT *WHERE{?x ?q $z}}} GROUP BY ?a ?p"
 ],
 [
  "wrap",
  "SELECT ?a (1 AS ?n) {\n?a ?p ?o\n} LIMIT 5"
 ],
 [
  "from",
  "SELECT * FROM <g> {?s ?p ?o}"
 ],
 [
  "fromBad",
  "SELECT * WHERE {\n  {\n    SELECT * FROM <g> {?s ?p ?o}\n  }\n}",
  "bad"
 ],
 [
  "long",
  "SELECT * {?s ?p \"\"\"a\nb\"\"\"}"
 ],
 [
  "ctx",
  "SELECT * { ?a ex:p ?b . ?c <q> ?d { ?b <r> ?e } FILTER (?e) { SELECT ?e { ?e <x> ?z } } ?a ",
  "bad"
 ],
 [
  "slot",
  "SELECT * { ?a <p> ?b . ?c <q> ?d VALUES (?a ?c) { (<u> <v>) (<w> ",
  "bad"
 ],
 [
  "term",
  "SELECT * {?s foa",
  "bad"
 ],
 [
  "termNl",
  "SELECT * WHERE {} foo\nbar",
  "bad"
 ],
 [
  "paren",
  "SELECT (S",
  "bad"
 ],
 [
  "cut",
  "SELECT * {{?s ?p ?o",
  "bad"
 ],
 [
  "wrong",
  "SELECT * {{?s ?p ?o 5 } ] x",
  "bad"
 ],
 [
  "verb",
  "SELECT * {?s ",
  "bad"
 ],
 [
  "note",
  "SELECT * {?s #c\n",
  "bad"
 ],
 [
  "tmpl",
  "CONSTRUCT {<a> <b> ",
  "bad"
 ],
 [
  "row",
  "SELECT * {VALUES (?x ?y) {(<a> ",
  "bad"
 ],
 [
  "rowEnd",
  "SELECT * {VALUES (?x ?y) {(<a>",
  "bad"
 ],
 [
  "after",
  "SELECT * {} VALUES ?x { ",
  "bad"
 ],
 [
  "objFull",
  "SELECT * {{?s ?p ?o}}"
 ],
 [
  "objDone",
  "SELECT * {{?s ?p ?o .\n    }}"
 ],
 [
  "annCut",
  "SELECT * {?s ?p ?o {| <a> ",
  "bad"
 ],
 [
  "annDone",
  "SELECT * {?s ?p ?o {| <a> <b> |}}"
 ],
 [
  "annDot",
  "SELECT * {?s ?p ?o {| <a> <b> .\n  |}}",
  "bad"
 ],
 [
  "comma",
  "SELECT * {?s ?p <a>,",
  "bad"
 ]
]