import random,sys
random.seed(int(sys.argv[1])); n=int(sys.argv[2])
for _ in range(n):
    sel=random.randint(0,1)
    L=random.randint(1,9); p=[]
    for _ in range(L):
        op=random.choices(range(10),weights=[30,20,4,8,6,6,5,8,6,3])[0]
        k=random.choices(range(11),weights=[8,4,4,12,14,2,2,2,2,1,1])[0]
        l=random.randint(0,5); r=random.randint(0,5)
        if random.random()<.8 and l>r: l,r=r,l
        p+= [op,k,l,r]
    print(random.randint(0,1),sel,*p)
