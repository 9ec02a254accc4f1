[
 [
  "fold",
  "PREFIX a: <b>\nSELECT * {\n{\n?s ?p ?o\n}\n{}\n}"
 ],
 [
  "pre",
  "PREFIX a: <u>\nPREFIX b: <v>\nPREFIX a: <w>\nSELECT ?x {a:k c:l ?x}"
 ],
 [
  "ask",
  "ASK {a:k a ?x}"
 ],
 [
  "bad",
  "SELECT ?x {?x a"
 ],
 [
  "vals",
  "SELECT * {} VALUES ?x {a:b}"
 ],
 [
  "nolab",
  "PREFIX a: <u> PREFIX a: <u> PREFIX <v> ASK {}"
 ],
 [
  "cons",
  "CONSTRUCT WHERE {?s ?p ?o}"
 ],
 [
  "deep",
  "SELECT * {{?s ?p ?o} VALUES ?x {<a>}}"
 ],
 [
  "ontype",
  "SELECT * {?s ?p ?o; \n}"
 ],
 [
  "onstr",
  "SELECT * {?s ?p [\n], \"\"\"\n\"\"\"}"
 ],
 [
  "fmt",
  "# a\nselect * {?s ?p +1 # b\n}\n# c"
 ],
 [
  "fmtPanic",
  "ASK {GRAPH ?g # c\n{}}"
 ],
 [
  "fmtGlue",
  "CONSTRUCT FROM p:g WHERE {}"
 ],
 [
  "fq",
  "# a\nselect ?x{?s ?p 'a'@en,[ ];?q -1 # b\n}limit 5"
 ],
 [
  "fqSign",
  "ASK {FILTER(1 -5)}"
 ],
 [
  "fqArg",
  "ASK {FILTER <f>(DISTINCT a:b)}"
 ],
 [
  "fqVals",
  "ASK {{SELECT * {} ORDER BY ?x VALUES ?y {}}}"
 ],
 [
  "star",
  "SELECT * {{SELECT * {} GROUP BY ?x}{SELECT * {} GROUP BY ?y VALUES ?z {}}} GROUP BY ?a"
 ],
 [
  "grp",
  "SELECT ?a ?x (?b+COUNT(?d) AS ?c) (?c AS ?e) (?f AS ?f) {?c ?p $x} GROUP BY ?x (?b)"
 ],
 [
  "mid",
  "SELECT ?x {?x WHERE ?y}"
 ],
 [
  "tail",
  "ASK {} ASK {}"
 ],
 [
  "share",
  "ASK { ?s a 1 . ?x a [a] . ?s <b> 3 OPTIONAL { ?s a 4 } ?s <c> 5 . ?x a 2 }"
 ],
 [
  "uri",
  "SELECT * { <e/a> a:b <f> . ?x <e/c }"
 ]
]