#!/usr/bin/env python3
"""Write lean/Verif/Spec/Layouts.lean: the frame layouts of all messages whose attributes all
have an encoder, as plain data."""
import os, sys
sys.path.insert(0, os.path.dirname(os.path.abspath(__file__)))
from gen_registry import classes, order
OUT = os.path.join(os.path.dirname(os.path.abspath(__file__)), "../lean/Verif/Spec/Layouts.lean")
def slot(n, t):
    k, *r = t[1:].split()
    if k == "uint": return '.num "%s" %d' % (n, 8 * int(r[0]))
    if k in ("ubits", "bits"): return '.num "%s" %d' % (n, int(r[0]))
    if k == "flag": return '.flag "%s"' % n
    if k == "reserved": return '.zero %d' % int(r[0])
    if k == "bytes": return '.rest "%s"' % n
    if k in ("dsk", "ipv6", "nodes"): return '.%s "%s"' % (k, n)
    return None
o = ["import Verif.Spec.Wire", "/-!\n# Frame layouts\n\nPlain data: title, command class, command, slots in wire order.\n-/", "namespace Spec\n"]
names = []
for k in order:
    c = classes[k]
    ss = [slot(n, t) for n, t in c["fields"]]
    if None in ss: continue
    names.append("%s.%s" % k)
    o.append('  ⟨"%s.%s", 0x%02X, 0x%02X, [%s]⟩' % (k[0], k[1], c["cc"], c["cmd"], ", ".join(ss)))
head, rows = o[:3], o[3:]
txt = "\n".join(head) + "\n/-- The layouts of the %d messages whose attributes can all be encoded. -/\ndef layouts : List Layout := [\n" % len(rows) + ",\n".join(rows) + "]\n\nend Spec\n"
open(OUT, "w").write(txt)
print(len(rows), "of", len(order), [ "%s.%s" % k for k in order if "%s.%s" % k not in names])
