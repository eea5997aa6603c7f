"""Writes the data tables of the modelled grammars as Lean lists.

usage: mkdata.py <source dir under /repo> <lean namespace> <output file> name=path ...
A row `a TAB b` becomes the pair (a, b), a row `a` the pair (a, a), as in pynini's string_file. Rows with a
third column (a weight, the same in all of them) become a table of their own, `nameW`.
With `name:chars=path` all cells must be single characters; two-column tables become two strings of
equal length zipped together, one-column tables a string.
With `name:list=path` the table has one column and becomes a list of texts.
"""
import sys

CHUNK = 64


def lit(s):
    out = ""
    for c in s:
        if c == "\\":
            out += "\\\\"
        elif c == '"':
            out += '\\"'
        elif c == "\t":
            out += "\\t"
        elif ord(c) < 32 or ord(c) in (0xA0, 0x3000, 0xFEFF) or 0x2000 <= ord(c) <= 0x200F:
            out += "\\u%04x" % ord(c)
        else:
            out += c
    return 't!"' + out + '"'


def main():
    root, ns, out, items = sys.argv[1], sys.argv[2], sys.argv[3], sys.argv[4:]
    res = []
    res.append("import Verif.Wfst.Processor\n\n/-\nData tables of /repo/%s, written by tools/mkdata.py from the .tsv files.\n-/\n" % root)
    res.append("namespace %s\n\nopen Verif.Wfst\n" % ns)
    for item in items:
        name, path = item.split("=")
        chars = name.endswith(":chars")
        single = name.endswith(":list")
        name = name.split(":")[0]
        rows, weighted, weights = [], [], set()
        for line in open("/repo/%s/%s" % (root, path), encoding="utf-8"):
            line = line.rstrip("\n").rstrip("\r")
            if not line:
                continue
            cols = line.split("\t")
            if len(cols) == 3:
                weighted.append((cols[0], cols[1]))
                weights.add(cols[2])
                continue
            assert len(cols) <= 2, (path, line)
            a = cols[0]
            b = cols[1] if len(cols) == 2 else cols[0]
            assert not any(c in a + b for c in "[]"), (path, line)
            rows.append((a, b))
        if chars:
            assert all(len(a) == 1 and len(b) == 1 for a, b in rows), path
            two = any(a != b for a, b in rows)
            parts = []
            for k in range(0, len(rows), CHUNK):
                nm = "%s%d" % (name, k // CHUNK)
                a = "".join(r[0] for r in rows[k:k + CHUNK])
                b = "".join(r[1] for r in rows[k:k + CHUNK])
                parts.append(nm)
                if two:
                    res.append("/-- `%s`, part %d. -/\ndef %s : List (Char × Char) :=\n  List.zip\n    %s\n    %s\n" %
                               (path, k // CHUNK, nm, lit(a), lit(b)))
                else:
                    res.append("/-- `%s`, part %d. -/\ndef %s : List Char :=\n  %s\n" % (path, k // CHUNK, nm, lit(a)))
            lines = [" ++ ".join(parts[i:i + 8]) for i in range(0, len(parts), 8)]
            res.append("/-- `%s`. -/\ndef %s : List %s :=\n  %s\n" %
                       (path, name, "(Char × Char)" if two else "Char", " ++\n  ".join(lines)))
            continue
        assert len(weights) <= 1, path
        assert not single or all(a == b for a, b in rows), path
        typ = "Str" if single else "(Str × Str)"
        chunks = [rows[i:i + CHUNK] for i in range(0, len(rows), CHUNK)] or [[]]
        if weighted:
            res.append("/-- `%s`, rows with weight %s. -/\ndef %sW : List (Str × Str) :=\n  [%s]\n" % (
                path, weights.pop(), name, ",\n   ".join("(%s, %s)" % (lit(a), lit(b)) for a, b in weighted)))
        names = []
        for k, ch in enumerate(chunks):
            nm = name if len(chunks) == 1 else "%s%d" % (name, k)
            names.append(nm)
            doc = "/-- `%s`%s. -/" % (path, "" if len(chunks) == 1 else ", part %d" % k)
            body = []
            cur = "  ["
            for i, (a, b) in enumerate(ch):
                cell = (lit(a) if single else "(%s, %s)" % (lit(a), lit(b))) + (", " if i + 1 < len(ch) else "")
                if len(cur) + len(cell) > 96:
                    body.append(cur.rstrip())
                    cur = "   "
                cur += cell
            body.append(cur + "]")
            res.append("%s\ndef %s : List %s :=\n%s\n" % (doc, nm, typ, "\n".join(body)))
        if len(chunks) > 1:
            lines = [" ++ ".join(names[i:i + 8]) for i in range(0, len(names), 8)] if single else names
            res.append("/-- `%s`. -/\ndef %s : List %s :=\n  %s\n" % (path, name, typ, " ++\n  ".join(lines)))
    res.append("end %s" % ns)
    open(out, "w", encoding="utf-8").write("\n".join(res) + "\n")


main()
