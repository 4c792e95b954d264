"""Append properties to properties.jsonl: reads a JSON list from stdin."""
import json, sys
ids = {json.loads(l)["id"] for l in open("/verif/properties.jsonl")}
for p in json.load(sys.stdin):
    assert p["id"] not in ids, p["id"]
    assert {"id", "title", "statement", "quantifier", "why_tests_cant", "anchors"} <= set(p)
    open("/verif/properties.jsonl", "a").write(json.dumps(p) + "\n")
