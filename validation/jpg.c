#include <stdio.h>
#include <stdlib.h>
#include <math.h>
#include <string.h>
typedef unsigned char u8;
u8*b;long n,p;unsigned bits;int nb;
u8 qt[4][64];struct{int cnt[17];u8 sym[256];}H[2][4];
static const u8 zz[64]={0,1,8,16,9,2,3,10,17,24,32,25,18,11,4,5,12,19,26,33,40,48,41,34,27,20,13,6,7,14,21,28,35,42,49,56,57,50,43,36,29,22,15,23,30,37,44,51,58,59,52,45,38,31,39,46,53,60,61,54,47,55,62,63};
int bit(){ if(!nb){ int c=b[p++]; if(c==0xff){ if(b[p]==0)p++; else {p--; c=0;} } bits=c;nb=8;} nb--; return bits>>nb&1;}
int get(int k){int v=0;while(k--)v=v*2+bit();return v;}
int ext(int k){ if(!k)return 0;int v=get(k);return v<(1<<(k-1))?v-(1<<k)+1:v;}
int huff(int c,int t){int code=0,first=0,idx=0;for(int l=1;l<=16;l++){code|=bit();int k=H[c][t].cnt[l];if(code-first<k)return H[c][t].sym[idx+code-first];idx+=k;first=(first+k)<<1;code<<=1;}fprintf(stderr,"bad huff\n");exit(1);}
double C[8][8];
int main(int ac,char**av){FILE*f=fopen(av[1],"rb");fseek(f,0,2);n=ftell(f);rewind(f);b=malloc(n+16);fread(b,1,n,f);
 for(int u=0;u<8;u++)for(int x=0;x<8;x++)C[u][x]=(u?1:sqrt(.5))/2*cos((2*x+1)*u*M_PI/16);
 int w=0,h=0,nc=0,hs[3],vs[3],tq[3],td[3],ta[3],dri=0;p=2;
 for(;;){int m=b[p+1];int L=b[p+2]*256+b[p+3];u8*d=b+p+4;p+=2+L;
  if(m==0xdb){u8*e=d+L-2;while(d<e){int t=*d&15;for(int i=0;i<64;i++)qt[t][zz[i]]=d[1+i];d+=65;}}
  else if(m==0xc4){u8*e=d+L-2;while(d<e){int c=*d>>4,t=*d&15,s=0;d++;for(int i=1;i<=16;i++){H[c][t].cnt[i]=*d;s+=*d++;}memcpy(H[c][t].sym,d,s);d+=s;}}
  else if(m==0xc0){h=d[1]*256+d[2];w=d[3]*256+d[4];nc=d[5];for(int i=0;i<nc;i++){hs[i]=d[7+3*i]>>4;vs[i]=d[7+3*i]&15;tq[i]=d[8+3*i];}}
  else if(m==0xdd)dri=d[0]*256+d[1];
  else if(m==0xda){for(int i=0;i<d[0];i++){td[i]=d[2+2*i]>>4;ta[i]=d[2+2*i]&15;}break;}}
 int mw=(w+hs[0]*8-1)/(hs[0]*8),mh=(h+vs[0]*8-1)/(vs[0]*8);u8*pl[3];int st[3],dc[3]={0};
 for(int c=0;c<nc;c++){st[c]=mw*hs[c]*8;pl[c]=malloc(st[c]*mh*vs[c]*8);}
 int cnt=0;
 for(int my=0;my<mh;my++)for(int mx=0;mx<mw;mx++){
  if(dri&&cnt&&cnt%dri==0){nb=0;while(!(b[p]==0xff&&b[p+1]>=0xd0&&b[p+1]<=0xd7))p++;p+=2;dc[0]=dc[1]=dc[2]=0;}
  cnt++;
  for(int c=0;c<nc;c++)for(int v=0;v<vs[c];v++)for(int u=0;u<hs[c];u++){
   double F[64]={0};int k=huff(0,td[c]);dc[c]+=ext(k);F[0]=dc[c]*qt[tq[c]][0];
   for(int i=1;i<64;i++){int s=huff(1,ta[c]);int r=s>>4;s&=15;if(!s){if(r<15)break;i+=15;continue;}i+=r;F[zz[i]]=ext(s)*qt[tq[c]][zz[i]];}
   double T[64];
   for(int y=0;y<8;y++)for(int x=0;x<8;x++){double a=0;for(int q=0;q<8;q++)a+=C[q][x]*F[y*8+q];T[y*8+x]=a;}
   for(int y=0;y<8;y++)for(int x=0;x<8;x++){double a=0;for(int q=0;q<8;q++)a+=C[q][y]*T[q*8+x];int z=(int)floor(a+128.5);if(z<0)z=0;if(z>255)z=255;
    pl[c][((my*vs[c]+v)*8+y)*st[c]+(mx*hs[c]+u)*8+x]=z;}
  }}
 FILE*o=fopen(av[2],"wb");unsigned hd[2]={w,h};fwrite(hd,4,2,o);
 for(int y=0;y<h;y++)for(int x=0;x<w;x++){double Y=pl[0][y*st[0]+x],cb=pl[1][(y*vs[1]/vs[0])*st[1]+x*hs[1]/hs[0]]-128.,cr=pl[2][(y*vs[2]/vs[0])*st[2]+x*hs[2]/hs[0]]-128.;
  double c3[3]={Y+1.402*cr,Y-.344136*cb-.714136*cr,Y+1.772*cb};int q[3];for(int i=0;i<3;i++){q[i]=(int)floor(c3[i]+.5);if(q[i]<0)q[i]=0;if(q[i]>255)q[i]=255;}
  fputc((2126*q[0]+7152*q[1]+722*q[2])/10000,o);}
 printf("%d %d\n",w,h);return 0;}
