[
 [
  "semiCut",
  "SELECT * {?s ?p ?o . ",
  "bad"
 ],
 [
  "semiFull",
  "SELECT * {?s ?p ?o . ?s ?q ?r}"
 ],
 [
  "semiDone",
  "SELECT * {?s ?p ?o ;\n              ?q ?r}"
 ]
]