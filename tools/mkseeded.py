#!/usr/bin/env python3
"""Write seeded/LOG.jsonl from the results of tools/mutate.py (/tmp/mut/results.jsonl, kept outside /verif)."""
import json, os, re
out = os.path.join(os.path.dirname(__file__), "..", "seeded", "LOG.jsonl")
TIGHT = {}
NOTE = {"H024": "not a wrong program: the position of the stream is restored by the property itself, so the claim still holds",
        "M098": "not a wrong program: the message header is not the header table, no byte string reaches the edited case"}
exec(open(os.path.join(os.path.dirname(__file__), "tightened.py")).read()) if os.path.exists(os.path.join(os.path.dirname(__file__), "tightened.py")) else None
last = {}
for l in open("/tmp/mut/results.jsonl"):
    r = json.loads(l)
    if r["id"] not in ("Q006",): last[r["id"]] = r  # Q006 was not a well-typed edit
with open(out, "w") as o:
    for r in last.values():
        thm = [x for x in r["failed"] if not x.startswith("example")]
        ex = [x for x in r["failed"] if x.startswith("example")]
        e = r["edits"]
        if r["id"].startswith("SWAP"): e = e if len(str(e)) < 2000 else str(e)[:600] + " ... (the same edit in the reader and in the specification of each class)"
        d = {"id": r["id"], "definition": r["definition"], "edit": e, "claim_broken": "%s: %s" % (r["property"], r["claim"]),
             "theorems_failed": thm[:60], "examples_failed": len(ex), "theorems_resting_on_failed_ones": r["indirect"][:60],
             "theorems_tightened": TIGHT.get(r["id"], [])}
        if r["unclear"]: d["build_stopped_at"] = [str(x)[:200] for x in r["unclear"]][:5]
        if r["id"] in NOTE: d["note"] = NOTE[r["id"]]
        o.write(json.dumps(d, ensure_ascii=False) + "\n")
print(len(last))
