import re,sys
def numbers(path,start,end=None):
    """hex numbers in the initializer after the text `start` up to matching '};'"""
    s=open(path).read()
    i=s.index(start); i=s.index('{',i); j=s.index('};',i)
    return re.findall(r'0[xX][0-9A-Fa-f]+',s[i:j])
def vec(name,ty,nums,doc,per=8,ctype=None):
    out=f"/-- {doc} -/\ndef {name} : Vector {ctype or ty} {len(nums)} := #v[\n"
    rows=[nums[i:i+per] for i in range(0,len(nums),per)]
    out+=",\n".join("  "+", ".join(r) for r in rows)+"]\n"
    return out
