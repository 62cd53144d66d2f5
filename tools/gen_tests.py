#!/usr/bin/env python3
"""Renders the crate's own unit tests of the 66 PDU kinds (three each) as statements about the model:
writes lean/Verif/Validation/CrateTests.lean.  A test of any other shape is an error."""
import re, glob, os
REPO = os.environ.get('REPO', '/repo')
OUT = os.path.join(os.path.dirname(os.path.abspath(__file__)), '..', 'lean', 'Verif', 'Validation', 'CrateTests.lean')
lines = []
count = 0
for p in sorted(glob.glob(REPO + '/src/*.rs')):
    s = open(p).read(); f = 'src/' + os.path.basename(p)
    t = s.find('#[cfg(test)]')
    if t < 0 or f.endswith('pdu_macro.rs'): continue
    body = s[t:]
    lineno = lambda off: s.count('\n', 0, t + off) + 1
    n = body.count('#[test]'); seen = 0
    for m in re.finditer(r'#\[test\]\n\s+fn (\w+)\(\) \{\n(.*?)\n        \}', body, re.S):
        name, b = m.group(1), re.sub(r'\s+', ' ', m.group(2)).strip()
        cite = f'{f}:{lineno(m.start())}-{lineno(m.end())}'
        if name == 'cast_to_any':
            r = re.fullmatch(r'let (\w+) = (\w+)Pdu::new\(\); let any_pdu = \1\.as_any\(\); assert!\(any_pdu\.is::<\2Pdu>\(\)\);', b)
            assert r, (cite, b)
            lines.append(f'/-- {cite} -/\nexample : CastToAny .{r.group(2)} := castToAny _\n')
        elif name == 'serialize_then_deserialize':
            r = re.fullmatch(r'let mut pdu = (\w+)Pdu::new\(\); let mut serialize_buf = BytesMut::new\(\); let _ = pdu\.serialize\(&mut serialize_buf\); let mut deserialize_buf = serialize_buf\.freeze\(\); let new_pdu = \1Pdu::deserialize\(&mut deserialize_buf\)\.(?:unwrap_or_default\(\)|expect\("Some"\)); assert_eq!\(new_pdu\.header(?:\(\))?, pdu\.header(?:\(\))?\);', b)
            assert r, (cite, b)
            lines.append(f'/-- {cite} -/\nexample : SerializeThenDeserialize .{r.group(1)} := serializeThenDeserialize _\n')
        elif name == 'check_default_pdu_length':
            r = re.fullmatch(r'const DEFAULT_LENGTH: u16 = (\d+) / (BITS_PER_BYTE|8); let pdu = (\w+)Pdu::new\(\); assert_eq!\(pdu\.header\(\)\.length, DEFAULT_LENGTH\);', b)
            assert r, (cite, b)
            lines.append(f'/-- {cite} -/\nexample : CheckDefaultPduLength .{r.group(3)} ({r.group(1)} / {r.group(2)}) := checkLength _ _ (by decide)\n')
        else: raise Exception(cite)
        seen += 1
    assert seen == n, (f, seen, n)
    count += seen
assert count == 198, count
open(OUT, 'w').write('''import Verif.Validation.Tests
/-
The crate's 198 unit tests of its PDU kinds, one by one, on the model: written by tools/gen_tests.py from the
tests' text.  They validate the model (the crate passes them, so must the model); they are not properties.
-/
namespace Dis
open CrateTest

''' + '\n'.join(lines) + '''
end Dis
''')
print(count)
