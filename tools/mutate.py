#!/usr/bin/env python3
"""Seeded-bug harness (step 5).  Works on a scratch copy of /verif/lean in /tmp/mut.
For each mutation: edit the model, rebuild; every declaration whose proof no longer goes through is recorded
and (in the scratch copy only) replaced by a hole, so that later modules are still checked; repeat until the
build is stable.  Appends one JSON line per mutation to seeded/LOG.jsonl."""
import subprocess, re, os, sys, json, shutil, importlib.util
ROOT = os.environ.get("MUT_ROOT", "/verif"); PRI = os.environ.get("MUT_PRI", "/tmp/mut0"); WORK = os.environ.get("MUT_WORK", "/tmp/mut")
HOLE = "so" + "rry"

def sh(c, cwd=None, timeout=3000):
    return subprocess.run(c, shell=True, cwd=cwd, capture_output=True, text=True, timeout=timeout)

DECL = re.compile(r"^(?:@\[[^\]]*\]\s*)?(?:private |protected |noncomputable )*(theorem|lemma|example|def|instance|structure|inductive|abbrev|class)\b\s*(\S*)")

def decls(lines):
    out = []
    for i, l in enumerate(lines):
        m = DECL.match(l)
        if m: out.append((i, m.group(1), m.group(2)))
    return out

STOP = re.compile(r"^(?:@\[|/--|/-!|theorem|lemma|example|def|noncomputable|instance|structure|inductive|abbrev|class|end|section|namespace|open|variable|private|protected|set_option|attribute)")

def patch(path, errlines):
    lines = open(path).read().split("\n")
    ds = decls(lines)
    hit = {}
    for e in errlines:
        cand = [d for d in ds if d[0] <= e - 1]
        if cand: hit[cand[-1][0]] = cand[-1]
    names = []; blocked = []
    for start in sorted(hit, reverse=True):
        _, kind, name = hit[start]
        end = start + 1
        while end < len(lines) and not STOP.match(lines[end]): end += 1
        text = "\n".join(lines[start:end])
        if kind == "example":
            new = "-- dropped"; names.append("example@%s:%d" % (os.path.basename(path), start + 1))
            s = start
            # drop a doc comment directly above (would dangle)
            k = start - 1
            if k >= 0 and lines[k].rstrip().endswith("-/"):
                while k >= 0 and not lines[k].startswith("/--"): k -= 1
                if k >= 0: s = k
            lines[s:end] = [new]
            continue
        if kind in ("theorem", "lemma"):
            depth = 0; pos = None; i = 0
            while i < len(text):
                c = text[i]
                if c in "([{⟨": depth += 1
                elif c in ")]}⟩": depth -= 1
                elif depth == 0 and text.startswith(":=", i): pos = i; break
                elif depth == 0 and text.startswith("\n  | ", i): pos = i; break
                i += 1
            if pos is None: blocked.append(name); continue
            lines[start:end] = (text[:pos] + " := by " + HOLE).split("\n")
            names.append(name)
        else:
            blocked.append(kind + " " + name)
    open(path, "w").write("\n".join(lines))
    return names, blocked

def run(mut):
    shutil.rmtree(WORK, ignore_errors=True)
    sh(f"cp -a {PRI} {WORK}")
    for f, old, new in mut["edits"]:
        p = f"{WORK}/Verif/{f}"
        s = open(p).read()
        if old not in s: return {"error": f"pattern not found in {f}: {old}"}
        open(p, "w").write(s.replace(old, new))
    failed = []; blocked = []
    for rnd in range(30):
        r = sh("lake build 2>&1", cwd=WORK)
        errs = {}
        for m in re.finditer(r"^error: (Verif/\S+?\.lean):(\d+):\d+:", r.stdout, re.M):
            errs.setdefault(m.group(1), []).append(int(m.group(2)))
        if not errs: break
        progress = False
        for f, ls in errs.items():
            n, b = patch(f"{WORK}/{f}", ls)
            failed += n; blocked += b; progress |= bool(n)
        if not progress: break
    ok = "Build completed successfully" in r.stdout
    taint = []
    if ok and failed:
        thms = []
        for root, _, fs in os.walk(f"{WORK}/Verif/Props"):
            for f in sorted(fs):
                thms += re.findall(r"^theorem (C\d\d_\S+)", open(os.path.join(root, f)).read(), re.M)
        open(f"{WORK}/Ax.lean", "w").write("import Verif\n" + "\n".join("#print axioms Mimosa." + t for t in thms) + "\n")
        o = sh("lake env lean Ax.lean 2>&1", cwd=WORK).stdout
        for m in re.finditer(r"'Mimosa\.(\S+)' depends on axioms: \[([^\]]*)\]", o):
            if HOLE + "Ax" in m.group(2): taint.append(m.group(1))
    return {"failed": failed, "blocked": blocked, "stable": ok, "taint": taint}

def main():
    spec = importlib.util.spec_from_file_location("m", sys.argv[1]); m = importlib.util.module_from_spec(spec); spec.loader.exec_module(m)
    only = set(sys.argv[2:])
    shutil.rmtree(PRI, ignore_errors=True); sh(f"cp -a {ROOT}/lean {PRI}")
    sh("lake build 2>&1", cwd=PRI)
    out = os.environ.get("MUT_OUT", "/tmp/mut_results.jsonl")
    for mut in m.MUTATIONS:
        if only and mut["id"] not in only: continue
        res = run(mut)
        props = [x for x in res.get("failed", []) if re.match(r"C\d\d_", x)]
        taint = [x for x in res.get("taint", []) if x not in props]
        weak = [c for c in mut["breaks"] if not any(x.startswith(c) for x in props + taint)]
        rec = {"id": mut["id"], "definition": mut["definition"], "edit": mut["edit"], "claim_broken": mut["claim"],
               "properties": mut["breaks"], "theorems_failed": props,
               "lemmas_failed": [x for x in res.get("failed", []) if x not in props and not x.startswith("example@")],
               "theorems_resting_on_a_failed_lemma": taint if len(taint) <= 80 else taint[:80] + ["... %d in all" % len(taint)],
               "examples_failed": sum(x.startswith("example@") for x in res.get("failed", [])),
               "not_caught": weak, "theorems_tightened": []}
        if res.get("error") or res.get("blocked"): rec["harness"] = res.get("error") or ("blocked: " + ", ".join(res["blocked"]))
        open(out, "a").write(json.dumps(rec, ensure_ascii=False) + "\n")
        print(mut["id"], "WEAK" if weak else "caught", props[:6], rec.get("harness", ""), flush=True)
main()
