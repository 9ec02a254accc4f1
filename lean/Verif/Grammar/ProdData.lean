-- GENERATED by /verif/tools/gen_prod.py; do not edit.
import Verif.Grammar.Sound
/-!
# Heights of derivations (data)

Not part of the code; checked by the kernel in `Verif.Grammar.Sparql`.
-/
namespace Verif.Grammar

def dnTree : KTree Nat :=
  (.br 263
   (.br 223
    (.br 203
     (.br 193
      (.br 188
       (.br 186
        (.br 185
         (.leaf 184 1000000)
         (.leaf 185 1000000))
        (.br 187
         (.leaf 186 0)
         (.leaf 187 1000000)))
       (.br 190
        (.br 189
         (.leaf 188 1000000)
         (.leaf 189 1000000))
        (.br 191
         (.leaf 190 1000000)
         (.br 192
          (.leaf 191 0)
          (.leaf 192 2)))))
      (.br 198
       (.br 195
        (.br 194
         (.leaf 193 1)
         (.leaf 194 1000000))
        (.br 196
         (.leaf 195 1000000)
         (.br 197
          (.leaf 196 1000000)
          (.leaf 197 1000000))))
       (.br 200
        (.br 199
         (.leaf 198 1000000)
         (.leaf 199 1000000))
        (.br 201
         (.leaf 200 1000000)
         (.br 202
          (.leaf 201 0)
          (.leaf 202 1000000))))))
     (.br 213
      (.br 208
       (.br 205
        (.br 204
         (.leaf 203 1000000)
         (.leaf 204 1000000))
        (.br 206
         (.leaf 205 1000000)
         (.br 207
          (.leaf 206 1000000)
          (.leaf 207 1000000))))
       (.br 210
        (.br 209
         (.leaf 208 1000000)
         (.leaf 209 1000000))
        (.br 211
         (.leaf 210 1000000)
         (.br 212
          (.leaf 211 1000000)
          (.leaf 212 1000000)))))
      (.br 218
       (.br 215
        (.br 214
         (.leaf 213 1000000)
         (.leaf 214 1000000))
        (.br 216
         (.leaf 215 1000000)
         (.br 217
          (.leaf 216 1000000)
          (.leaf 217 1000000))))
       (.br 220
        (.br 219
         (.leaf 218 1000000)
         (.leaf 219 1000000))
        (.br 221
         (.leaf 220 1000000)
         (.br 222
          (.leaf 221 1000000)
          (.leaf 222 1000000)))))))
    (.br 243
     (.br 233
      (.br 228
       (.br 225
        (.br 224
         (.leaf 223 1000000)
         (.leaf 224 1000000))
        (.br 226
         (.leaf 225 1000000)
         (.br 227
          (.leaf 226 1000000)
          (.leaf 227 1000000))))
       (.br 230
        (.br 229
         (.leaf 228 1000000)
         (.leaf 229 1000000))
        (.br 231
         (.leaf 230 1000000)
         (.br 232
          (.leaf 231 1000000)
          (.leaf 232 1000000)))))
      (.br 238
       (.br 235
        (.br 234
         (.leaf 233 1000000)
         (.leaf 234 1000000))
        (.br 236
         (.leaf 235 1000000)
         (.br 237
          (.leaf 236 1000000)
          (.leaf 237 1000000))))
       (.br 240
        (.br 239
         (.leaf 238 1000000)
         (.leaf 239 1000000))
        (.br 241
         (.leaf 240 1000000)
         (.br 242
          (.leaf 241 1000000)
          (.leaf 242 1000000))))))
     (.br 253
      (.br 248
       (.br 245
        (.br 244
         (.leaf 243 1000000)
         (.leaf 244 1000000))
        (.br 246
         (.leaf 245 1000000)
         (.br 247
          (.leaf 246 1000000)
          (.leaf 247 0))))
       (.br 250
        (.br 249
         (.leaf 248 1000000)
         (.leaf 249 1000000))
        (.br 251
         (.leaf 250 0)
         (.br 252
          (.leaf 251 1000000)
          (.leaf 252 1000000)))))
      (.br 258
       (.br 255
        (.br 254
         (.leaf 253 1000000)
         (.leaf 254 1000000))
        (.br 256
         (.leaf 255 1000000)
         (.br 257
          (.leaf 256 0)
          (.leaf 257 1000000))))
       (.br 260
        (.br 259
         (.leaf 258 0)
         (.leaf 259 1000000))
        (.br 261
         (.leaf 260 1000000)
         (.br 262
          (.leaf 261 1000000)
          (.leaf 262 1000000))))))))
   (.br 302
    (.br 282
     (.br 272
      (.br 267
       (.br 265
        (.br 264
         (.leaf 263 1000000)
         (.leaf 264 1000000))
        (.br 266
         (.leaf 265 1000000)
         (.leaf 266 1000000)))
       (.br 269
        (.br 268
         (.leaf 267 1000000)
         (.leaf 268 1000000))
        (.br 270
         (.leaf 269 1000000)
         (.br 271
          (.leaf 270 1000000)
          (.leaf 271 1000000)))))
      (.br 277
       (.br 274
        (.br 273
         (.leaf 272 1000000)
         (.leaf 273 1000000))
        (.br 275
         (.leaf 274 1000000)
         (.br 276
          (.leaf 275 1000000)
          (.leaf 276 1000000))))
       (.br 279
        (.br 278
         (.leaf 277 1000000)
         (.leaf 278 1000000))
        (.br 280
         (.leaf 279 1000000)
         (.br 281
          (.leaf 280 1000000)
          (.leaf 281 1000000))))))
     (.br 292
      (.br 287
       (.br 284
        (.br 283
         (.leaf 282 1000000)
         (.leaf 283 1000000))
        (.br 285
         (.leaf 284 1000000)
         (.br 286
          (.leaf 285 1000000)
          (.leaf 286 1000000))))
       (.br 289
        (.br 288
         (.leaf 287 1000000)
         (.leaf 288 1000000))
        (.br 290
         (.leaf 289 1000000)
         (.br 291
          (.leaf 290 1000000)
          (.leaf 291 0)))))
      (.br 297
       (.br 294
        (.br 293
         (.leaf 292 1000000)
         (.leaf 293 1000000))
        (.br 295
         (.leaf 294 1000000)
         (.br 296
          (.leaf 295 1000000)
          (.leaf 296 1000000))))
       (.br 299
        (.br 298
         (.leaf 297 1000000)
         (.leaf 298 0))
        (.br 300
         (.leaf 299 1000000)
         (.br 301
          (.leaf 300 1000000)
          (.leaf 301 1000000)))))))
    (.br 324
     (.br 312
      (.br 307
       (.br 304
        (.br 303
         (.leaf 302 1000000)
         (.leaf 303 1000000))
        (.br 305
         (.leaf 304 1000000)
         (.br 306
          (.leaf 305 1000000)
          (.leaf 306 1000000))))
       (.br 309
        (.br 308
         (.leaf 307 1000000)
         (.leaf 308 1000000))
        (.br 310
         (.leaf 309 1000000)
         (.br 311
          (.leaf 310 1000000)
          (.leaf 311 1000000)))))
      (.br 319
       (.br 315
        (.br 314
         (.leaf 312 1000000)
         (.leaf 314 1000000))
        (.br 316
         (.leaf 315 1000000)
         (.br 317
          (.leaf 316 1000000)
          (.leaf 317 1000000))))
       (.br 321
        (.br 320
         (.leaf 319 1000000)
         (.leaf 320 1000000))
        (.br 322
         (.leaf 321 1000000)
         (.br 323
          (.leaf 322 1000000)
          (.leaf 323 1000000))))))
     (.br 334
      (.br 329
       (.br 326
        (.br 325
         (.leaf 324 1000000)
         (.leaf 325 1000000))
        (.br 327
         (.leaf 326 1000000)
         (.br 328
          (.leaf 327 1000000)
          (.leaf 328 1000000))))
       (.br 331
        (.br 330
         (.leaf 329 1000000)
         (.leaf 330 1000000))
        (.br 332
         (.leaf 331 1000000)
         (.br 333
          (.leaf 332 1000000)
          (.leaf 333 1000000)))))
      (.br 339
       (.br 336
        (.br 335
         (.leaf 334 1000000)
         (.leaf 335 1000000))
        (.br 337
         (.leaf 336 1000000)
         (.br 338
          (.leaf 337 1000000)
          (.leaf 338 1000000))))
       (.br 341
        (.br 340
         (.leaf 339 1000000)
         (.leaf 340 1000000))
        (.br 342
         (.leaf 341 1000000)
         (.br 343
          (.leaf 342 1000000)
          (.leaf 343 1000000)))))))))

def dpTree : KTree Nat :=
  (.br 263
   (.br 223
    (.br 203
     (.br 193
      (.br 188
       (.br 186
        (.br 185
         (.leaf 184 3)
         (.leaf 185 2))
        (.br 187
         (.leaf 186 0)
         (.leaf 187 3)))
       (.br 190
        (.br 189
         (.leaf 188 1)
         (.leaf 189 1))
        (.br 191
         (.leaf 190 3)
         (.br 192
          (.leaf 191 0)
          (.leaf 192 2)))))
      (.br 198
       (.br 195
        (.br 194
         (.leaf 193 1)
         (.leaf 194 0))
        (.br 196
         (.leaf 195 0)
         (.br 197
          (.leaf 196 1)
          (.leaf 197 0))))
       (.br 200
        (.br 199
         (.leaf 198 0)
         (.leaf 199 3))
        (.br 201
         (.leaf 200 2)
         (.br 202
          (.leaf 201 0)
          (.leaf 202 3))))))
     (.br 213
      (.br 208
       (.br 205
        (.br 204
         (.leaf 203 0)
         (.leaf 204 10))
        (.br 206
         (.leaf 205 0)
         (.br 207
          (.leaf 206 5)
          (.leaf 207 1))))
       (.br 210
        (.br 209
         (.leaf 208 2)
         (.leaf 209 2))
        (.br 211
         (.leaf 210 1)
         (.br 212
          (.leaf 211 0)
          (.leaf 212 1)))))
      (.br 218
       (.br 215
        (.br 214
         (.leaf 213 2)
         (.leaf 214 3))
        (.br 216
         (.leaf 215 2)
         (.br 217
          (.leaf 216 1)
          (.leaf 217 1))))
       (.br 220
        (.br 219
         (.leaf 218 0)
         (.leaf 219 1))
        (.br 221
         (.leaf 220 2)
         (.br 222
          (.leaf 221 1)
          (.leaf 222 1)))))))
    (.br 243
     (.br 233
      (.br 228
       (.br 225
        (.br 224
         (.leaf 223 11)
         (.leaf 224 0))
        (.br 226
         (.leaf 225 0)
         (.br 227
          (.leaf 226 1)
          (.leaf 227 2))))
       (.br 230
        (.br 229
         (.leaf 228 1)
         (.leaf 229 1))
        (.br 231
         (.leaf 230 1)
         (.br 232
          (.leaf 231 1)
          (.leaf 232 1)))))
      (.br 238
       (.br 235
        (.br 234
         (.leaf 233 1)
         (.leaf 234 2))
        (.br 236
         (.leaf 235 2)
         (.br 237
          (.leaf 236 2)
          (.leaf 237 2))))
       (.br 240
        (.br 239
         (.leaf 238 3)
         (.leaf 239 1))
        (.br 241
         (.leaf 240 0)
         (.br 242
          (.leaf 241 0)
          (.leaf 242 1))))))
     (.br 253
      (.br 248
       (.br 245
        (.br 244
         (.leaf 243 1)
         (.leaf 244 2))
        (.br 246
         (.leaf 245 2)
         (.br 247
          (.leaf 246 1)
          (.leaf 247 0))))
       (.br 250
        (.br 249
         (.leaf 248 2)
         (.leaf 249 4))
        (.br 251
         (.leaf 250 0)
         (.br 252
          (.leaf 251 5)
          (.leaf 252 3)))))
      (.br 258
       (.br 255
        (.br 254
         (.leaf 253 3)
         (.leaf 254 0))
        (.br 256
         (.leaf 255 1)
         (.br 257
          (.leaf 256 0)
          (.leaf 257 5))))
       (.br 260
        (.br 259
         (.leaf 258 0)
         (.leaf 259 5))
        (.br 261
         (.leaf 260 3)
         (.br 262
          (.leaf 261 4)
          (.leaf 262 2))))))))
   (.br 302
    (.br 282
     (.br 272
      (.br 267
       (.br 265
        (.br 264
         (.leaf 263 2)
         (.leaf 264 2))
        (.br 266
         (.leaf 265 2)
         (.leaf 266 2)))
       (.br 269
        (.br 268
         (.leaf 267 2)
         (.leaf 268 11))
        (.br 270
         (.leaf 269 2)
         (.br 271
          (.leaf 270 1)
          (.leaf 271 0)))))
      (.br 277
       (.br 274
        (.br 273
         (.leaf 272 0)
         (.leaf 273 1))
        (.br 275
         (.leaf 274 1)
         (.br 276
          (.leaf 275 0)
          (.leaf 276 0))))
       (.br 279
        (.br 278
         (.leaf 277 0)
         (.leaf 278 5))
        (.br 280
         (.leaf 279 0)
         (.br 281
          (.leaf 280 2)
          (.leaf 281 1))))))
     (.br 292
      (.br 287
       (.br 284
        (.br 283
         (.leaf 282 1)
         (.leaf 283 2))
        (.br 285
         (.leaf 284 1)
         (.br 286
          (.leaf 285 1)
          (.leaf 286 2))))
       (.br 289
        (.br 288
         (.leaf 287 1)
         (.leaf 288 1))
        (.br 290
         (.leaf 289 4)
         (.br 291
          (.leaf 290 3)
          (.leaf 291 0)))))
      (.br 297
       (.br 294
        (.br 293
         (.leaf 292 0)
         (.leaf 293 3))
        (.br 295
         (.leaf 294 2)
         (.br 296
          (.leaf 295 1)
          (.leaf 296 4))))
       (.br 299
        (.br 298
         (.leaf 297 3)
         (.leaf 298 0))
        (.br 300
         (.leaf 299 6)
         (.br 301
          (.leaf 300 1)
          (.leaf 301 3)))))))
    (.br 324
     (.br 312
      (.br 307
       (.br 304
        (.br 303
         (.leaf 302 5)
         (.leaf 303 2))
        (.br 305
         (.leaf 304 1)
         (.br 306
          (.leaf 305 4)
          (.leaf 306 3))))
       (.br 309
        (.br 308
         (.leaf 307 2)
         (.leaf 308 1))
        (.br 310
         (.leaf 309 0)
         (.br 311
          (.leaf 310 0)
          (.leaf 311 0)))))
      (.br 319
       (.br 315
        (.br 314
         (.leaf 312 0)
         (.leaf 314 2))
        (.br 316
         (.leaf 315 5)
         (.br 317
          (.leaf 316 2)
          (.leaf 317 5))))
       (.br 321
        (.br 320
         (.leaf 319 0)
         (.leaf 320 9))
        (.br 322
         (.leaf 321 8)
         (.br 323
          (.leaf 322 7)
          (.leaf 323 6))))))
     (.br 334
      (.br 329
       (.br 326
        (.br 325
         (.leaf 324 5)
         (.leaf 325 4))
        (.br 327
         (.leaf 326 3)
         (.br 328
          (.leaf 327 0)
          (.leaf 328 0))))
       (.br 331
        (.br 330
         (.leaf 329 2)
         (.leaf 330 1))
        (.br 332
         (.leaf 331 2)
         (.br 333
          (.leaf 332 1)
          (.leaf 333 1)))))
      (.br 339
       (.br 336
        (.br 335
         (.leaf 334 1)
         (.leaf 335 0))
        (.br 337
         (.leaf 336 11)
         (.br 338
          (.leaf 337 11)
          (.leaf 338 11))))
       (.br 341
        (.br 340
         (.leaf 339 2)
         (.leaf 340 2))
        (.br 342
         (.leaf 341 0)
         (.br 343
          (.leaf 342 0)
          (.leaf 343 0)))))))))

def sparqlProd : Prod where
  dn k := (dnTree.find k).getD 0
  dp k := (dpTree.find k).getD 0

end Verif.Grammar
