"""Reads src/common/enums.rs: every enum, its discriminants, default, codec widths (strict; asserts on surprises)."""
import re
from rustparse import *
PATH = "src/common/enums.rs"
W = {"u8": 1, "u16": 2, "u32": 4}

def parse_enums():
    src = strip_comments(read(PATH))
    out = {}
    for m in re.finditer(r"pub enum (\w+)\s*\{", src):
        e = match_brace(src, m.end() - 1); body = src[m.end():e]
        v = []; default = None; nxt = 0; isdef = False
        for it in re.finditer(r"(#\[default\])|(#\[[^\]]*\])|(\w+)\s*(?:=\s*([0-9_xXa-fA-F]+))?\s*,", body):
            if it.group(1): isdef = True; continue
            if it.group(2): continue
            d = int(it.group(4).replace("_", ""), 0) if it.group(4) else nxt
            nxt = d + 1
            if isdef: default = (it.group(3), d); isdef = False
            v.append((it.group(3), d))
        # nothing else may be in the body
        rest = re.sub(r"#\[[^\]]*\]|\w+\s*(=\s*[0-9_xXa-fA-F]+)?\s*,", "", body).strip()
        assert rest == "", (m.group(1), rest)
        if default is None and v:
            # derive(Default) without #[default] would not compile
            raise Exception("no default " + m.group(1))
        out[m.group(1)] = dict(name=m.group(1), l0=line_of(src, m.start()), l1=line_of(src, e), variants=v, default=default,
                               get=None, getl=None, put=None, putl=None, len=None, lenl=None, fd=None)
    for m in re.finditer(r"impl (?:(\w+(?:<\w+>)?) for )?(\w+)\s*\{", src):
        tr, n = m.group(1), m.group(2)
        if n not in out: continue
        o = m.end() - 1; e = match_brace(src, o); b = re.sub(r"\s+", " ", src[o + 1:e])
        E = out[n]; l = (line_of(src, m.start()), line_of(src, e))
        if tr is None:
            g = re.search(r"Self::from_(u\d+)\(buf\.get_(u\d+)\(\)\)\.unwrap_or_else\(Self::default\)", b)
            if g:
                assert g.group(1) == g.group(2), n
                E["get"] = W[g.group(1)]; E["getl"] = l
            elif "unimplemented!()" in b:
                E["get"] = 0; E["getl"] = l
            else: raise Exception((n, b))
        elif tr == "FieldSerialize":
            g = re.search(r"buf\.put_(u\d+)\(\*self as (u\d+)\);", b)
            assert g and g.group(1) == g.group(2), (n, b)
            E["put"] = W[g.group(1)]; E["putl"] = l
        elif tr == "FieldDeserialize":
            assert "Self::deserialize(buf)" in b, (n, b); E["fd"] = l
        elif tr == "FieldLen":
            g = re.search(r"usize \{ (\d+) \}", b); assert g, (n, b)
            E["len"] = int(g.group(1)); E["lenl"] = l
        else:
            E.setdefault("other", []).append((tr, l))
    return out

if __name__ == "__main__":
    E = parse_enums()
    print(len(E), sum(len(x["variants"]) for x in E.values()))
    print("max variants", sorted([(len(x["variants"]), x["name"]) for x in E.values()])[-8:])
    for x in E.values():
        ds = [d for _, d in x["variants"]]
        if not ds: print("EMPTY", x["name"], x["get"]); continue
        if max(ds) >= 256 ** x["get"]: print("OVERFLOW", x["name"], x["get"], [v for v in x["variants"] if v[1] >= 256 ** x["get"]][:10])
        if len(set(ds)) != len(ds): print("DUP", x["name"])
        ws = {w for w in (x["get"], x["put"], x["len"]) if w is not None}
        if len(ws) != 1: print("WIDTH", x["name"], x["get"], x["put"], x["len"])
        flags = (x["put"] is not None, x["fd"] is not None, x["len"] is not None)
        if len(set(flags)) != 1: print("PARTIAL", x["name"], flags)
        if x.get("other"): print("OTHER", x["name"], x["other"])
    print("with traits", sum(x["put"] is not None for x in E.values()))
