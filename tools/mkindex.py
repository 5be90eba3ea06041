"""Rewrites the section "Index of files" of DESIGN.md from the head comments of the modules."""
import glob, os, pathlib, re
root = pathlib.Path(__file__).parent.parent
out = ["## 7. Index of files", "", "Generated by tools/mkindex.py.", ""]
for d, what in (("Spec", "Specifications"), ("Props", "Theorems, with the claims they are about")):
    out += [what + ":", ""]
    for f in sorted((root / "lean/Verif" / d).glob("*.lean")):
        t = f.read_text()
        doc = re.search(r"^/-\n(.*?)-/", t, re.S | re.M).group(1).strip()
        doc = re.sub(r"\s+", " ", doc)
        doc = re.match(r".*?[.](?= |$)", doc + " ").group(0)
        cs = sorted(set(re.findall(r"^theorem (C\d\d)", t, re.M)))
        out.append(f"* {d}/{f.stem}: {doc}" + (f" [{' '.join(cs)}]" if cs else ""))
    out.append("")
p = root / "DESIGN.md"
s = p.read_text()
s = s.split("## 7. Index of files")[0].rstrip("\n") + "\n\n" + "\n".join(out)
p.write_text(s)
