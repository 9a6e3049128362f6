#!/usr/bin/env python3
"""st.py Cnn status note: sets the status of a property in status.json."""
import json, os, sys
f = os.path.join(os.path.dirname(os.path.abspath(__file__)), "status.json")
d = json.load(open(f)); d[sys.argv[1]] = [sys.argv[2], sys.argv[3]]
json.dump(dict(sorted(d.items())), open(f, "w"), indent=0)
