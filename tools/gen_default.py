#!/usr/bin/env python3
"""Generate lean/Verif/Config/DefaultYaml.lean from /repo/mimosa/inputdata/config/config_default.yaml.
Minimal YAML reader for the features that file uses: nested maps, lists of scalars / maps, folded scalars (>-),
one anchor with a merge key, quoted strings, PyYAML's implicit types."""
import re, sys
from fractions import Fraction
SRC = "/repo/mimosa/inputdata/config/config_default.yaml"
raw = open(SRC).read().split("\n")
lines = []   # (indent, text, lineno)
i = 0
def scalar(s):
    s = s.strip()
    if s == "": return None
    if s[0] == '"' and s[-1] == '"': return s[1:-1]
    if s in ("True", "true", "yes", "Yes"): return True
    if s in ("False", "false", "no", "No"): return False
    if re.fullmatch(r"[-+]?\d+", s): return int(s)
    if re.fullmatch(r"[-+]?(\d+\.\d*|\.\d+)", s): return Fraction(s)
    return s
anchors = {}
def strip_comment(l):
    return "" if l.lstrip().startswith("#") else l
def parse_block(i, ind):
    """parse map or list starting at line i with indentation >= ind; returns value, next i"""
    while i < len(raw) and strip_comment(raw[i]).strip() == "": i += 1
    if i >= len(raw): return None, i
    cur = len(raw[i]) - len(raw[i].lstrip())
    if cur < ind: return None, i
    if raw[i].lstrip().startswith("- "):
        out = []
        while i < len(raw):
            if strip_comment(raw[i]).strip() == "": i += 1; continue
            c = len(raw[i]) - len(raw[i].lstrip())
            if c != cur or not raw[i].lstrip().startswith("- "): break
            rest = raw[i].lstrip()[2:]
            if re.match(r"[\w ]+: ", rest):
                raw[i] = " " * (cur + 2) + rest
                v, i = parse_block(i, cur + 2)
                out.append(v)
            else:
                out.append(scalar(rest)); i += 1
        return out, i
    out = {}
    while i < len(raw):
        if strip_comment(raw[i]).strip() == "": i += 1; continue
        c = len(raw[i]) - len(raw[i].lstrip())
        if c < cur: break
        assert c == cur, (i, raw[i])
        m = re.match(r"\s*(.+?):(?: (.*))?$", raw[i]); assert m, raw[i]
        key, rest = m.group(1), (m.group(2) or "").strip()
        if rest == ">-":
            i += 1; txt = []
            while i < len(raw) and (raw[i].strip() == "" or len(raw[i]) - len(raw[i].lstrip()) > cur):
                if raw[i].strip() == "": break
                txt.append(raw[i].strip()); i += 1
            out[key] = " ".join(txt)
        elif rest.startswith("&"):
            name = rest[1:]
            v, i = parse_block(i + 1, cur + 1); out[key] = v; anchors[name] = v
        elif key == "<<":
            for k, v in anchors[rest[1:]].items(): out.setdefault(k, v)
            i += 1
        elif rest == "":
            v, j = parse_block(i + 1, cur + 1); out[key] = v; i = j
        else:
            out[key] = scalar(rest); i += 1
    return out, i
tree, _ = parse_block(0, 0)

def q(s): return '"' + s.replace("\\", "\\\\").replace('"', '\\"') + '"'
def lean(v, ind):
    sp = " " * ind
    if v is None: return ".atom .null"
    if v is True: return ".atom (.bool true)"
    if v is False: return ".atom (.bool false)"
    if isinstance(v, int): return f".atom (.int ({v}))" if v < 0 else f".atom (.int {v})"
    if isinstance(v, Fraction):
        n, d = v.numerator, v.denominator
        return f".atom (.float (.fin (mkRat ({n}) {d})))"
    if isinstance(v, str): return f".atom (.str {q(v)})"
    if isinstance(v, list):
        return ".list [\n" + ",\n".join(sp + "  " + lean(x, ind + 2) for x in v) + "]"
    return ".dict [\n" + ",\n".join(f"{sp}  (.str {q(k)}, {lean(x, ind + 2)})" for k, x in v.items()) + "]"
if __name__ == "__main__":
    out = ["import Verif.Config.Py", "",
      "/-! # `mimosa/inputdata/config/config_default.yaml` as loaded by PyYAML",
      "Generated by tools/gen_default.py; one definition per top-level section. -/", "", "namespace Mimosa.DefaultYaml", ""]
    names = []
    for k, v in tree.items():
        n = re.sub(r"\W+", "_", k); names.append((k, n))
        ln = next(i + 1 for i, l in enumerate(open(SRC).read().split("\n")) if l.startswith(k + ":"))
        out += [f"/-- config_default.yaml:{ln} `{k}` -/", f"def {n} : Val :=", "  " + lean(v, 2), ""]
    out += ["/-- config_default.yaml: the whole file (top-level entries). -/", "def entries : List (Key × Val) :=", "  [ " + ",\n    ".join(f"(.str {q(k)}, {n})" for k, n in names) + " ]", "", "end Mimosa.DefaultYaml", ""]
    open("/verif/lean/Verif/Config/DefaultYaml.lean", "w").write("\n".join(out))
    print([n for _, n in names])
