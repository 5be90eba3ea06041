"""Usage: setstatus.py ID STATUS NOTE ; updates tools/status.json."""
import json, sys, pathlib
p = pathlib.Path(__file__).parent / "status.json"
d = json.loads(p.read_text())
d[sys.argv[1]] = {"status": sys.argv[2], "note": sys.argv[3]}
p.write_text(json.dumps(d, indent=0) + "\n")
