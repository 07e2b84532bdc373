#!/usr/bin/env python3
"""Print the items of a generated file, one per line, in the notation of lean/Verif/Tools/Compile.lean."""
import re, sys

src = open(sys.argv[1]).read()
lines = src.split("\n")


def attr(text):
    m = re.fullmatch(r"#\[asn\((.*?),?\s*\)\]", text.strip(), re.S)
    out, rest = {}, m.group(1).strip()
    while rest:
        m = re.match(r'([a-z_]+)\s*=\s*("[^"]*"|true|false|\d+)\s*(,\s*|$)', rest)
        assert m, rest
        assert m.group(1) not in out
        out[m.group(1)] = m.group(2).strip('"')
        rest = rest[m.end():]
    return out


def show(at):
    return "[" + " ".join(f"{k}={at[k]}" for k in sorted(at)) + "]"


def squeeze(s):
    s = re.sub(r"\s+", "", s)
    return re.sub(r",(?=[)>}])", "", s)


def members(body):
    rest, out = body.strip()[1:-1].strip(), []
    while rest:
        at = None
        m = re.match(r"#\[asn\(.*?\)\]", rest, re.S)
        if m:
            at = attr(m.group(0)); rest = rest[m.end():].strip()
        m = re.match(r"([^#]*?),(?=\s*(#|pub|[A-Za-z_]|$))", rest, re.S)
        assert m, rest[:200]
        e = m.group(1).strip()
        e = re.sub(r"^pub ", "", e)
        out.append((show(at) if at is not None else "[]") + squeeze(e))
        rest = rest[m.end():].strip()
    return ";".join(out)


consts = {}
for m in re.finditer(r"^impl (\w+) \{\n(.*?)^\}", src, re.S | re.M):
    cs = re.findall(r"pub const (\w+): (\w+) =\s+(-?\d+)(\w+);", m.group(2))
    assert len(cs) == m.group(2).count("pub const"), m.group(0)
    consts[m.group(1)] = ";".join(f"{a}:{b}={c}" for a, b, c, d in cs if b == d or 1 / 0)
i = 0
end = src.find("\nfn main")
while i < len(lines):
    if lines[i].startswith("fn main") or lines[i].startswith("mod ") or lines[i].startswith("#[cfg(test)]"):
        break
    m = re.fullmatch(r"pub type (\w+) = (\w+);", lines[i])
    if m:
        print(f"type {m.group(1)} = {m.group(2)}")
        i += 1
        continue
    if lines[i].startswith("#[derive("):
        i += 1
        a = lines[i]
        while not a.rstrip().endswith(")]"):
            i += 1
            a += "\n" + lines[i]
        i += 1
        body = lines[i]
        if body.endswith("{"):
            while lines[i] != "}":
                i += 1
                body += "\n" + lines[i]
        else:
            while not body.endswith((";", "}")):
                i += 1
                body += "\n" + lines[i]
        m = re.match(r"pub (struct|enum) (\w+)", body)
        rest = body[m.end():].strip()
        if rest.startswith("{"):
            rest = "{" + members(rest) + "}"
        else:
            rest = squeeze(rest.rstrip(";").replace("pub ", ""))
        c = consts.pop(m.group(2), None)
        print(f"{m.group(1)} {m.group(2)} {show(attr(a))} {rest}" + (f" impl {c}" if c is not None else ""))
    i += 1
assert not consts, list(consts)[:5]
