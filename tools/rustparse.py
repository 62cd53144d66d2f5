"""Tiny, strict reader for the regular parts of /repo/src (used by gen.py)."""
import re, os, glob
REPO = os.environ.get("REPO", "/repo")

def read(path):
    return open(os.path.join(REPO, path)).read()

def line_of(src, pos):
    return src.count("\n", 0, pos) + 1

def match_brace(src, i):
    assert src[i] == "{"
    d = 0
    while True:
        c = src[i]
        if c == "{": d += 1
        elif c == "}":
            d -= 1
            if d == 0: return i
        i += 1

def strip_comments(s):
    # keeps newlines so that line numbers survive
    return re.sub(r"//[^\n]*", lambda m: " " * len(m.group(0)), s)

class Fn:
    def __init__(s, name, params, ret, body, l0, l1):
        s.name, s.params, s.ret, s.body, s.l0, s.l1 = name, params, ret, body, l0, l1

def fns_in(src, lo, hi):
    out = {}
    for m in re.finditer(r"\bfn (\w+)\s*(?:<[^>]*>)?\s*\(", src[lo:hi]):
        st = lo + m.start()
        i = lo + m.end(); d = 1
        while d:
            if src[i] == "(": d += 1
            elif src[i] == ")": d -= 1
            i += 1
        params = src[lo + m.end(): i - 1]
        j = i
        while src[j] not in "{;": j += 1
        if src[j] == ";": continue
        ret = src[i:j].strip()
        if ret.startswith("->"): ret = ret[2:].strip()
        k = match_brace(src, j)
        out[m.group(1)] = Fn(m.group(1), params, ret, src[j + 1:k], line_of(src, st), line_of(src, k))
    return out

class Ty: pass

def parse_types(path):
    raw = read(path); src = strip_comments(raw)
    cut = src.find("#[cfg(test)]")
    if cut >= 0: src = src[:cut]
    types = {}
    for m in re.finditer(r"((?:#\[[^\]]*\]\s*)*)pub struct (\w+)\s*\{", src):
        t = Ty(); t.path = path; t.name = m.group(2)
        o = m.end() - 1; e = match_brace(src, o)
        t.l0 = line_of(src, src.rindex("pub struct", 0, o)); t.l1 = line_of(src, e)
        t.derives = re.findall(r"derive\(([^)]*)\)", m.group(1))
        t.fields = []
        for f in re.finditer(r"(pub(?:\([a-z]+\))? )?(\w+)\s*:\s*([^,\n]+(?:<[^\n]*>)?)\s*,", src[o + 1:e]):
            t.fields.append((f.group(2), f.group(3).strip(), bool(f.group(1))))
        t.impls = {}
        types[t.name] = t
    for m in re.finditer(r"impl(?:<[^>]*>)?\s+(?:([\w:<>]+)\s+for\s+)?(\w+)\s*\{", src):
        trait, name = m.group(1), m.group(2)
        if name not in types: continue
        o = m.end() - 1; e = match_brace(src, o)
        t = types[name]
        t.impls.setdefault(trait, {}).update(fns_in(src, o, e))
        c = re.search(r"const LENGTH: usize\s*=\s*([^;]+);", src[o:e])
        if c:
            t.length = c.group(1).strip(); t.length_line = line_of(src, o + c.start())
            t.length_trait = trait
    return types

if __name__ == "__main__":
    import sys
    for p in sorted(glob.glob(REPO + "/src/common/data_types/*.rs")):
        p = os.path.relpath(p, REPO)
        if p.endswith("mod.rs"): continue
        for t in parse_types(p).values():
            print("=====", p, t.name, t.l0, t.l1, "derives", t.derives, "LENGTH", getattr(t, "length", None))
            print("  F:", "; ".join(f"{a}:{b}" + ("" if c else "(priv)") for a, b, c in t.fields))
            for tr, fs in t.impls.items():
                for f in fs.values():
                    if tr == "FieldSerialize" and f.body.split() == ["self.serialize(buf);"]: print("  FS ok"); continue
                    if tr == "FieldDeserialize" and f.body.split() == ["Self::deserialize(buf)"]: print("  FD ok"); continue
                    if tr == "FieldLen" and f.body.split() == ["Self::LENGTH"]: print("  FL=LENGTH"); continue
                    if f.name == "new" :
                        print("  new", re.sub(r"\s+", " ", f.params), "=>", re.sub(r"\s+", " ", f.body)[:300]); continue
                    print("  ", tr, f.name, f"{f.l0}-{f.l1}", re.sub(r"\s+", " ", f.params), "=>", re.sub(r"\s+", " ", f.body))
