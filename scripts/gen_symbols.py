#!/usr/bin/env python3
"""Generates lean/Verif/Data/PlayerSymbols.lean from /repo/player/iivision.dbg: the attributes
of the lines of the debug file that start with "sym", in order.

A text is a list of numbers; each number holds up to 32 characters in base 256, the first
character least significant (all characters are ASCII and non-zero).  The script checks that
every line is exactly "sym", a tab and the attributes key=value separated by commas."""
import sys
src = sys.argv[1] if len(sys.argv) > 1 else "/repo/player/iivision.dbg"
lines = [l for l in open(src).read().split("\n") if l.startswith("sym")]


def num(t):
    ws = [t[i:i + 32] for i in range(0, len(t), 32)]
    return "[" + ", ".join("0x%x" % int.from_bytes(w.encode("ascii"), "little") for w in ws) + "]"


def line(l):
    assert l.startswith("sym\t")
    kvs = [kv.split("=") for kv in l[4:].split(",")]
    assert "sym\t" + ",".join("=".join(kv) for kv in kvs) == l
    assert all(len(kv) == 2 for kv in kvs)
    return "  [" + ", ".join("(%s, %s)" % (num(k), num(v)) for k, v in kvs) + "]"


out = ["/-! Generated by scripts/gen_symbols.py from player/iivision.dbg: the attributes of the `sym`",
       "lines of the file, in order.  A text is a list of numbers, each with up to 32 characters in",
       "base 256, first character least significant. -/",
       "", "namespace IIVision", ""]
n = 32
chunks = [lines[i:i + n] for i in range(0, len(lines), n)]
for i, c in enumerate(chunks):
    out.append("/-- player/iivision.dbg, sym lines %d-%d -/" % (i * n, i * n + len(c) - 1))
    out.append("def symLines%d : List (List (List Nat × List Nat)) := [" % i)
    out.append(",\n".join(line(l) for l in c) + "]")
    out.append("")
out.append("/-- player/iivision.dbg: all sym lines, in groups. -/")
out.append("def symLineGroups : List (List (List (List Nat × List Nat))) := [")
out.append("  " + ", ".join("symLines%d" % i for i in range(len(chunks))) + "]")
out.append("")
out.append("end IIVision")
open("/verif/lean/Verif/Data/PlayerSymbols.lean", "w").write("\n".join(out) + "\n")
