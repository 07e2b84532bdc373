#!/usr/bin/env python3
"""Transcribe a generated file of /repo/examples/tests into Lean definitions.

usage: transcribe.py /repo/examples/tests/13-ngap.rs Ngap > lean/Verif/Examples/Ngap.lean

Every item `#[derive(.., AperCodec)] #[asn(..)] pub struct/enum X ..` becomes a definition `X : Ty`,
and so does every `pub type X = Y;`, with the attributes read as `Verif/Derive/Macro.lean` says the
macro reads them. Definitions are emitted after those they mention. Anything unexpected stops the script.
"""
import re, sys

path, ns = sys.argv[1], sys.argv[2]
lines = open(path).read().split("\n")
WIDTHS = {"i8", "i16", "i32", "i64", "u8", "u16", "u32", "u64"}
items, order = {}, []


def attr(text):
    """The entries of `#[asn(..)]`."""
    m = re.fullmatch(r"#\[asn\((.*?),?\s*\)\]", text.strip(), re.S)
    assert m, text
    out = {}
    rest = m.group(1).strip()
    while rest:
        m = re.match(r'([a-z_]+)\s*=\s*("[^"]*"|true|false|\d+)\s*(,\s*|$)', rest)
        assert m, rest
        assert m.group(1) not in out, rest
        out[m.group(1)] = m.group(2).strip('"')
        rest = rest[m.end():]
    return out


i = 0
while i < len(lines):
    m = re.fullmatch(r"pub type ([A-Za-z0-9_]+) = ([A-Za-z0-9_]+);", lines[i])
    if m:
        items[m.group(1)] = ("type", {"type": "alias"}, m.group(2), i + 1, i + 1)
        order.append(m.group(1))
    if not re.match(r"#\[derive\(.*\bAperCodec\b.*\)\]", lines[i]):
        i += 1
        continue
    first = i + 1
    i += 1
    a = lines[i]
    while not a.rstrip().endswith(")]"):
        i += 1
        a += "\n" + lines[i]
    i += 1
    head = lines[i]
    body = head
    if head.endswith("{"):
        while lines[i] != "}":
            i += 1
            body += "\n" + lines[i]
    else:
        while not body.endswith((";", "}")):
            i += 1
            body += "\n" + lines[i]
    items_a = attr(a)
    m = re.match(r"pub (struct|enum) ([A-Za-z0-9_]+)", body)
    assert m, body
    name = m.group(2)
    assert name not in items, name
    items[name] = (m.group(1), items_a, body[m.end():].strip(), first, i + 1)
    order.append(name)
    i += 1


def opt(x):
    return "none" if x is None else f"(some {x})" if not x.startswith("-") else f"(some ({x}))"


def ident(x):
    return "«%s»" % x if x in {"Type", "Sort", "Prop"} else x


def newtype(body):
    m = re.fullmatch(r"\(\s*pub (.*?),?\s*\)\s*;", body, re.S)
    assert m, body
    return m.group(1)


def entries(body):
    """The members of `{ .. }`, each with its attribute."""
    assert body.startswith("{") and body.endswith("}"), body
    rest = body[1:-1].strip()
    out = []
    while rest:
        at = {}
        m = re.match(r"#\[asn\(.*?\)\]", rest, re.S)
        if m:
            at = attr(m.group(0))
            rest = rest[m.end():].strip()
        m = re.match(r"([^#]*?),(?=\s*(#|pub|[A-Za-z_]|$))", rest, re.S)
        assert m, rest[:200]
        out.append((at, m.group(1).strip()))
        rest = rest[m.end():].strip()
    return out


def alternatives(body, kind):
    out, deps = ".nil", []
    for at, e in reversed(entries(body)):
        m = re.fullmatch(r"([A-Za-z0-9_]+)\(\s*([A-Za-z0-9_]+),?\s*\)", e)
        assert m, e
        assert set(at) <= {"key", "extended"} and "key" in at, at
        deps.append(m.group(2))
        out = f"(.cons {at['key']} {at.get('extended', 'false')} {ident(m.group(2))} {out})"
    return out, deps


def translate(name):
    sort, a, body, *_ = items[name]
    a = dict(a)
    ty = a.pop("type")
    lb, ub = a.pop("lb", None), a.pop("ub", None)
    szl, szu = a.pop("sz_lb", None), a.pop("sz_ub", None)
    ext, szx = a.pop("extensible", None), a.pop("sz_extensible", None)
    nopt = a.pop("optional_fields", None)
    assert not a, a
    b = lambda x: x or "false"
    if ty == "alias":
        return ident(body), [body]
    if ty in ("INTEGER", "ENUMERATED"):
        w = newtype(body)
        assert w in WIDTHS, w
        return f".{ty.lower()} .{w} {opt(lb)} {opt(ub)} {b(ext)}", []
    if ty == "BOOLEAN":
        assert newtype(body) == "bool"
        return ".boolean", []
    if ty == "NULL":
        assert body == ";", body
        return ".null", []
    if ty == "OBJECT-IDENTIFIER":
        return ".objectIdentifier", []
    if ty == "BITSTRING":
        assert newtype(body) == "BitVec<u8, Msb0>", body
        return f".bitstring {opt(szl)} {opt(szu)} {b(szx)}", []
    if ty == "OCTET-STRING":
        assert newtype(body) == "Vec<u8>", body
        return f".octetstring {opt(szl)} {opt(szu)} {b(szx)}", []
    if ty in ("UTF8String", "PrintableString", "VisibleString"):
        assert newtype(body) == "String", body
        k = {"U": "utf8", "P": "printable", "V": "visible"}[ty[0]]
        return f".charstring .{k} {opt(szl)} {opt(szu)} {b(szx)}", []
    if ty == "SEQUENCE-OF":
        m = re.fullmatch(r"Vec<([A-Za-z0-9_]+)>", newtype(body))
        assert m, body
        return f".sequenceOf {opt(szl)} {opt(szu)} {b(szx)} {ident(m.group(1))}", [m.group(1)]
    if ty == "SEQUENCE":
        out, deps = ".nil", []
        for at, e in reversed(entries(body)):
            m = re.fullmatch(r"pub ([a-z0-9_A-Z#]+):\s+(.*)", e, re.S)
            assert m, e
            t = m.group(2)
            o = re.fullmatch(r"Option<\s*([A-Za-z0-9_]+),?\s*>", t, re.S)
            if o:
                assert set(at) == {"optional_idx"}, (name, at)
                deps.append(o.group(1))
                out = f"(.optional {at['optional_idx']} {ident(o.group(1))} {out})"
            else:
                assert re.fullmatch(r"[A-Za-z0-9_]+", t), t
                assert set(at) <= {"key_field"}, (name, at)
                deps.append(t)
                out = f"(.required {at.get('key_field', 'false')} {ident(t)} {out})"
        return f".sequence {b(ext)} {nopt or 0} {out}", deps
    if ty == "CHOICE":
        out, deps = alternatives(body, ty)
        return f".choice {lb} {ub} {b(ext)} {out}", deps
    if ty == "OPEN":
        out, deps = alternatives(body, ty)
        return f".openType {out}", deps
    raise Exception(ty)


defs = {n: translate(n) for n in order}
done, emitted = set(), []


def emit(n, stack):
    assert n not in stack, ("recursive", stack)
    if n in done:
        return
    for d in defs[n][1]:
        emit(d, stack + [n])
    done.add(n)
    emitted.append(n)


sys.setrecursionlimit(10000)
for n in order:
    emit(n, [])

if __name__ == "__main__":
    rel = path.split("/repo/")[-1]
    print(f"import Verif.Derive.Model")
    print("/-!")
    print(f"# The types of {rel}")
    print()
    print(f"Written by tools/transcribe.py from {rel}: one definition per item, its attributes read as")
    print("`Verif/Derive/Macro.lean` says the macro reads them, items after those they mention.")
    print("-/")
    print(f"namespace Hampi.{ns}")
    print()
    for n in emitted:
        text, _ = defs[n]
        first, last = items[n][3], items[n][4]
        print(f"/-- {rel}:{first}-{last} -/")
        print(f"def {ident(n)} : Ty := {text}")
    print()
    print(f"end Hampi.{ns}")
