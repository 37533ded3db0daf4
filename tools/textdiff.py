#!/usr/bin/env python3
"""Compare the Rust text in lean/Verif/Rust/Src with the source lines it cites.

usage: textdiff.py [REPO]        (default /repo)

Conditional compilation is compared in ChaChaDispatch.lean only.  Every item there is preceded by a comment `/-- path:from-to. -/`.  The script strips comments, attributes, lifetimes and visibility from both
texts, writes the parameters of the macro in rng.rs as Lean has them, splits them into tokens and prints the tokens in which they differ.  What it prints is what DESIGN.md lists as differences.
At the end it lists the functions of the source, outside tests and benchmarks and with a body, whose line is in none of the cited ranges.
"""
import difflib, glob, os, re, sys

repo = sys.argv[1] if len(sys.argv) > 1 else "/repo"
here = os.path.dirname(os.path.abspath(__file__))
TOKEN = re.compile(r"[A-Za-z_]\w*|\d\w*|::|->|=>|<<=|>>=|<<|>>|\^=|\|=|&=|\+=|-=|\*=|==|!=|<=|>=|&&|\|\||\.\.=|\.\.|\S")


def tokens(text, keep_cfg=False):
    text = re.sub(r"//[^\n]*", "", text)
    text = re.sub(r"/-.*?-/", "", text, flags=re.S)
    text = re.sub(r"#!?\[(?!cfg)[^\]]*\]" if keep_cfg else r"#!?\[[^\]]*\]", "", text)
    text = re.sub(r"'[a-z_]+\s*,?\s*(?!')", "", text)
    text = re.sub(r"<\s*>", "", text)
    text = re.sub(r"\bpub(\s*\([a-z]+\))?\s", " ", text)
    text = re.sub(r"rust_items! \w+", " ", text)
    text = text.replace("rust_traced!", " ").replace("rust!", " ").replace("> >", ">>")
    text = text.replace("$Rng", "Rng<R>").replace("$rounds", "R")
    return TOKEN.findall(text)


def item(text, start):
    """The item that begins at start: up to the matching closing brace, or a semicolon outside brackets."""
    depth, i = 0, start
    while i < len(text):
        c = text[i]
        if c == '"':
            i = text.index('"', i + 1)
        elif c in "([{":
            depth += 1
        elif c in ")]}":
            depth -= 1
            if depth == 0 and c == "}":
                return text[start:i + 1]
        elif c == ";" and depth == 0:
            return text[start:i + 1]
        i += 1
    return text[start:]


same = differ = 0
cited = {}
for path in sorted(glob.glob(os.path.join(here, "../lean/Verif/Rust/Src/*.lean"))):
    text = open(path).read()
    for m in re.finditer(r"/--[^/]*?([\w./-]+\.rs):(\d+)(?:-(\d+))?\. -/\s*(rust_traced!|rust!|rust_items!|pub|fn|const|unsafe)", text):
        file, a, b = m.group(1), int(m.group(2)), int(m.group(3) or m.group(2))
        cited.setdefault(file, set()).update(range(a, b + 1))
        lines = open(os.path.join(repo, file)).read().split("\n")
        keep = path.endswith("Dispatch.lean")
        source = tokens("\n".join(lines[a - 1:b]), keep)
        model = tokens(item(text, m.start(4)), keep)
        if source == model:
            same += 1
            continue
        differ += 1
        print(f"{os.path.basename(path)} {file}:{a}-{b}")
        for op, i1, i2, j1, j2 in difflib.SequenceMatcher(None, source, model, autojunk=False).get_opcodes():
            if op != "equal":
                print("   -", " ".join(source[i1:i2]))
                print("   +", " ".join(model[j1:j2]))
print(f"{same} items identical, {differ} differ")

functions = 0
for path in sorted(glob.glob(os.path.join(repo, "*/src/**/*.rs"), recursive=True)):
    file = os.path.relpath(path, repo)
    for k, line in enumerate(open(path).read().split("\n"), 1):
        if re.match(r"\s*(#\[cfg\(test\)\]|mod tests?\b)", line):
            break
        m = re.match(r"\s*(?:pub(?:\([a-z]+\))? )?(?:const )?(?:unsafe )?fn (\w+)", line)
        if m and not line.endswith(";") and not file.startswith("benches/"):
            functions += 1
            if k not in cited.get(file, ()):
                print(f"no text: {file}:{k} {m.group(1)}")
print(f"{functions} functions")
