[
 ["bnode", "SELECT * {[?p ?o] . [?p ?o]}"],
 ["contract", "SELECT * {?s ?p ?o . ?s ?q ?r .\n?x ?p ?o . ?s ?u ?v}"],
 ["remark", "SELECT * {?s ?p ?o . ?s ?q ?r#c\n. ?x ?y ?z}"]
]
