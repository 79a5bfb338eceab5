#!/usr/bin/env python3
"""Try edits of the model on a scratch copy of the Lake project.

Usage: mutate.py EDITS.json RESULTS.jsonl

EDITS.json is a list of {"id", "file", "old", "new", ...}; `file` is relative to lean/Verif.  For each edit the project is
copied to SCRATCH, the edit applied, and the files with the property theorems of the claims listed built.  Declarations whose proofs fail get the proof `sorry` and the
build is repeated, until it passes.  The property theorems of those files that then depend on `sorryAx` are the ones that no longer
have a proof; the others still hold of the edited model.
"""
import glob, json, os, re, subprocess, sys

SRC = "/verif/lean/"
SCRATCH = "/tmp/m/lean/"
START = re.compile(r"^(?:@\[[^\]]*\]\s*)*(?:private |protected |noncomputable )*(theorem|lemma|example|def|instance|abbrev|structure|inductive)\b")
TOP = re.compile(r"^(theorem|lemma|example|def|instance|abbrev|structure|inductive|private|protected|noncomputable|@\[|/--|/-!|section|end|namespace|open|variable|set_option|#|omit|include|local|attribute|mutual)")


def sh(cmd):
    return subprocess.run(cmd, shell=True, capture_output=True, text=True)


def sorry_decl(lines, n):
    """Replace the proof of the declaration at line n (from 0); returns its kind and name."""
    a = n
    while a >= 0 and not START.match(lines[a]):
        a -= 1
    if a < 0:
        return None
    b = a + 1
    while b < len(lines) and not TOP.match(lines[b]):
        b += 1
    m = START.match(lines[a])
    kind = m.group(1)
    rest = lines[a][m.end():].split()
    name = rest[0] if rest and kind != "example" else "example"
    if kind not in ("theorem", "lemma", "example", "instance"):
        return kind, name, False
    text = "\n".join(lines[a:b])
    depth, i, cut = 0, 0, None
    while i < len(text):
        c = text[i]
        if text.startswith("'\"'", i):
            i += 3
            continue
        if c == '"':  # skip string literals
            i += 1
            while i < len(text) and text[i] != '"':
                i += 2 if text[i] == "\\" else 1
        elif c in "([{⟨":
            depth += 1
        elif c in ")]}⟩":
            depth -= 1
        elif depth == 0 and text.startswith(":=", i) and not text[text.rfind("\n", 0, i) + 1:i].strip().startswith("let "):
            cut = i
            break
        elif depth == 0 and text.startswith("\n  | ", i):
            cut = i
            break
        i += 1
    if cut is None:
        return kind, name, False
    new = text[:cut].rstrip() + " := by sorry"
    tail = []
    k = b
    while k > a and lines[k - 1].strip() == "":
        k -= 1
    lines[a:b] = new.split("\n") + [""] * (b - a - len(new.split("\n")))
    return kind, name, True


def run(edit):
    os.makedirs(SCRATCH, exist_ok=True)
    sh(f"rm -rf {SCRATCH} && cp -a {SRC} {SCRATCH}")
    path = SCRATCH + "Verif/" + edit["file"]
    s = open(path).read()
    edits = edit.get("edits") or [[edit["old"], edit["new"]]]
    for old, new in edits:
        if s.count(old) != 1:
            return {"id": edit["id"], "result": "edit matches %d times" % s.count(old), "text": old}
        s = s.replace(old, new)
    open(path, "w").write(s)
    failed = []
    mods, names = [], []
    for f in sorted(glob.glob(SCRATCH + "Verif/Props/*.lean")):
        here = re.findall(r"^theorem (C\d\d\w*)", open(f).read(), re.M)
        if any(re.match(r"C\d+", n).group(0) in edit["claims"] for n in here):
            mods.append("Verif.Props." + os.path.basename(f)[:-5])
            names += here
    axioms = open(SCRATCH + "Verif/Axioms.lean").read()
    prints = [m.group(0) for m in re.finditer(r"#print axioms (\S+)", axioms) if m.group(1).split(".")[-1] in names]
    open(SCRATCH + "Scratch.lean", "w").write("\n".join("import " + m for m in mods) + "\n" + "\n".join(prints) + "\n")
    for _ in range(25):
        r = sh(f"cd {SCRATCH} && lake build {' '.join(mods)} 2>&1")
        out = r.stdout
        if r.returncode == 0:
            break
        errs = set(re.findall(r"^error: (Verif/\S+\.lean):(\d+):\d+: ", out, re.M))
        if not errs:
            return {"id": edit["id"], "result": "build failed", "text": out[-2000:]}
        byfile = {}
        for f, l in errs:
            byfile.setdefault(f, set()).add(int(l) - 1)
        progress = False
        for f, ls in byfile.items():
            lines = open(SCRATCH + f).read().split("\n")
            for l in sorted(ls, reverse=True):
                d = sorry_decl(lines, l)
                if d is None or not d[2]:
                    msg = re.findall(r"^error: %s:%d:\d+: (.*(?:\n.*){0,8})" % (re.escape(f), l + 1), out, re.M)
                    return {"id": edit["id"], "result": "definition does not elaborate", "text": "%s:%d %s %s" % (f, l + 1, d, msg[:1])}
                tag = "%s:%s" % (f[6:-5], d[1]) if d[1] != "example" else "%s:%d example" % (f[6:-5], l + 1)
                if tag not in failed:
                    failed.append(tag)
                    progress = True
            open(SCRATCH + f, "w").write("\n".join(lines))
        if not progress:
            return {"id": edit["id"], "result": "stuck", "text": str(errs) + out[-1500:]}
    out = sh(f"cd {SCRATCH} && lake env lean Scratch.lean 2>&1").stdout
    gone, kept = [], []
    for m in re.finditer(r"'([^']+)' (?:depends on axioms: \[([^\]]*)\]|does not depend on any axioms)", out):
        (gone if "sorryAx" in (m.group(2) or "") else kept).append(m.group(1).split(".")[-1])
    return {"id": edit["id"], "result": "built", "direct": failed, "gone": gone, "kept": len(kept),
            "kept_claims": [k for k in kept if any(k == c or k.startswith(c + "_") for c in edit.get("claims", []))]}


def main():
    edits = json.load(open(sys.argv[1]))
    for e in edits:
        r = run(e)
        with open(sys.argv[2], "a") as f:
            f.write(json.dumps(r) + "\n")


main()
