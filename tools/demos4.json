[
 ["shortOther", "PREFIX s: <e/>\nSELECT * {<e/a> s:b <f>, <e/a>} VALUES ?x {<e/c>}"],
 ["shortNew", "SELECT * {<e/a> ?p <f>, <e/a>} VALUES ?x {<e/c>}"]
]
