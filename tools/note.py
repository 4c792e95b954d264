"""Set the note of a property in notes.json: note.py C01 "text"."""
import json, sys, pathlib
p = pathlib.Path(__file__).with_name("notes.json")
d = json.loads(p.read_text())
d[sys.argv[1]] = sys.argv[2]
p.write_text(json.dumps(dict(sorted(d.items())), indent=1) + "\n")
